import Verif.Go.Basic

/-! # Model of /repo/internal/crypto/keccak.go `KeccakF800`

The two half-bodies of the loop were transcribed mechanically, line by line. -/

set_option autoImplicit false

namespace Verif.Crypto

open Go

/-- keccak.go:27-50 -/
def rck8 : List U32 :=
  [0x00000001, 0x00008082, 0x0000808A, 0x80008000, 0x0000808B, 0x80000001, 0x80008081, 0x00008009, 0x0000008A, 0x00000088, 0x80008009, 0x8000000A, 0x8000808B, 0x0000008B, 0x00008089, 0x00008003, 0x00008002, 0x00000080, 0x0000800A, 0x8000000A, 0x80008081, 0x00008080]

/-- keccak.go:52-54; the shift amounts are at most 30 -/
def rol (x : U32) (s : Nat) : U32 := (x <<< s) ||| (x >>> (32 - s))

/-- the 25 local variables `Aba … Asu` (or `Eba … Esu`), keccak.go:57-67 -/
structure Lanes where
  ba : U32
  be : U32
  bi : U32
  bo : U32
  bu : U32
  ga : U32
  ge : U32
  gi : U32
  go : U32
  gu : U32
  ka : U32
  ke : U32
  ki : U32
  ko : U32
  ku : U32
  ma : U32
  me : U32
  mi : U32
  mo : U32
  mu : U32
  sa : U32
  se : U32
  si : U32
  so : U32
  su : U32
  deriving DecidableEq

/-- keccak.go:100-165: the even round, from the `A` variables to the `E` variables; `rc` is `rck8[round]` -/
def evenRound (s : Lanes) (rc : U32) : Lanes :=
  let ⟨Aba, Abe, Abi, Abo, Abu, Aga, Age, Agi, Ago, Agu, Aka, Ake, Aki, Ako, Aku, Ama, Ame, Ami, Amo, Amu, Asa, Ase, Asi, Aso, Asu⟩ := s
  let Ba := Aba ^^^ Aga ^^^ Aka ^^^ Ama ^^^ Asa
  let Be := Abe ^^^ Age ^^^ Ake ^^^ Ame ^^^ Ase
  let Bi := Abi ^^^ Agi ^^^ Aki ^^^ Ami ^^^ Asi
  let Bo := Abo ^^^ Ago ^^^ Ako ^^^ Amo ^^^ Aso
  let Bu := Abu ^^^ Agu ^^^ Aku ^^^ Amu ^^^ Asu
  let Da := Bu ^^^ rol Be 1
  let De := Ba ^^^ rol Bi 1
  let Di := Be ^^^ rol Bo 1
  let Do := Bi ^^^ rol Bu 1
  let Du := Bo ^^^ rol Ba 1
  let Ba := Aba ^^^ Da
  let Be := rol (Age ^^^ De) 12
  let Bi := rol (Aki ^^^ Di) 11
  let Bo := rol (Amo ^^^ Do) 21
  let Bu := rol (Asu ^^^ Du) 14
  let Eba := Ba ^^^ (~~~Be &&& Bi) ^^^ rc
  let Ebe := Be ^^^ (~~~Bi &&& Bo)
  let Ebi := Bi ^^^ (~~~Bo &&& Bu)
  let Ebo := Bo ^^^ (~~~Bu &&& Ba)
  let Ebu := Bu ^^^ (~~~Ba &&& Be)
  let Ba := rol (Abo ^^^ Do) 28
  let Be := rol (Agu ^^^ Du) 20
  let Bi := rol (Aka ^^^ Da) 3
  let Bo := rol (Ame ^^^ De) 13
  let Bu := rol (Asi ^^^ Di) 29
  let Ega := Ba ^^^ (~~~Be &&& Bi)
  let Ege := Be ^^^ (~~~Bi &&& Bo)
  let Egi := Bi ^^^ (~~~Bo &&& Bu)
  let Ego := Bo ^^^ (~~~Bu &&& Ba)
  let Egu := Bu ^^^ (~~~Ba &&& Be)
  let Ba := rol (Abe ^^^ De) 1
  let Be := rol (Agi ^^^ Di) 6
  let Bi := rol (Ako ^^^ Do) 25
  let Bo := rol (Amu ^^^ Du) 8
  let Bu := rol (Asa ^^^ Da) 18
  let Eka := Ba ^^^ (~~~Be &&& Bi)
  let Eke := Be ^^^ (~~~Bi &&& Bo)
  let Eki := Bi ^^^ (~~~Bo &&& Bu)
  let Eko := Bo ^^^ (~~~Bu &&& Ba)
  let Eku := Bu ^^^ (~~~Ba &&& Be)
  let Ba := rol (Abu ^^^ Du) 27
  let Be := rol (Aga ^^^ Da) 4
  let Bi := rol (Ake ^^^ De) 10
  let Bo := rol (Ami ^^^ Di) 15
  let Bu := rol (Aso ^^^ Do) 24
  let Ema := Ba ^^^ (~~~Be &&& Bi)
  let Eme := Be ^^^ (~~~Bi &&& Bo)
  let Emi := Bi ^^^ (~~~Bo &&& Bu)
  let Emo := Bo ^^^ (~~~Bu &&& Ba)
  let Emu := Bu ^^^ (~~~Ba &&& Be)
  let Ba := rol (Abi ^^^ Di) 30
  let Be := rol (Ago ^^^ Do) 23
  let Bi := rol (Aku ^^^ Du) 7
  let Bo := rol (Ama ^^^ Da) 9
  let Bu := rol (Ase ^^^ De) 2
  let Esa := Ba ^^^ (~~~Be &&& Bi)
  let Ese := Be ^^^ (~~~Bi &&& Bo)
  let Esi := Bi ^^^ (~~~Bo &&& Bu)
  let Eso := Bo ^^^ (~~~Bu &&& Ba)
  let Esu := Bu ^^^ (~~~Ba &&& Be)
  ⟨Eba, Ebe, Ebi, Ebo, Ebu, Ega, Ege, Egi, Ego, Egu, Eka, Eke, Eki, Eko, Eku, Ema, Eme, Emi, Emo, Emu, Esa, Ese, Esi, Eso, Esu⟩

/-- keccak.go:169-234: the odd round, from the `E` variables to the `A` variables; `rc` is `rck8[round+1]` -/
def oddRound (s : Lanes) (rc : U32) : Lanes :=
  let ⟨Eba, Ebe, Ebi, Ebo, Ebu, Ega, Ege, Egi, Ego, Egu, Eka, Eke, Eki, Eko, Eku, Ema, Eme, Emi, Emo, Emu, Esa, Ese, Esi, Eso, Esu⟩ := s
  let Ba := Eba ^^^ Ega ^^^ Eka ^^^ Ema ^^^ Esa
  let Be := Ebe ^^^ Ege ^^^ Eke ^^^ Eme ^^^ Ese
  let Bi := Ebi ^^^ Egi ^^^ Eki ^^^ Emi ^^^ Esi
  let Bo := Ebo ^^^ Ego ^^^ Eko ^^^ Emo ^^^ Eso
  let Bu := Ebu ^^^ Egu ^^^ Eku ^^^ Emu ^^^ Esu
  let Da := Bu ^^^ rol Be 1
  let De := Ba ^^^ rol Bi 1
  let Di := Be ^^^ rol Bo 1
  let Do := Bi ^^^ rol Bu 1
  let Du := Bo ^^^ rol Ba 1
  let Ba := Eba ^^^ Da
  let Be := rol (Ege ^^^ De) 12
  let Bi := rol (Eki ^^^ Di) 11
  let Bo := rol (Emo ^^^ Do) 21
  let Bu := rol (Esu ^^^ Du) 14
  let Aba := Ba ^^^ (~~~Be &&& Bi) ^^^ rc
  let Abe := Be ^^^ (~~~Bi &&& Bo)
  let Abi := Bi ^^^ (~~~Bo &&& Bu)
  let Abo := Bo ^^^ (~~~Bu &&& Ba)
  let Abu := Bu ^^^ (~~~Ba &&& Be)
  let Ba := rol (Ebo ^^^ Do) 28
  let Be := rol (Egu ^^^ Du) 20
  let Bi := rol (Eka ^^^ Da) 3
  let Bo := rol (Eme ^^^ De) 13
  let Bu := rol (Esi ^^^ Di) 29
  let Aga := Ba ^^^ (~~~Be &&& Bi)
  let Age := Be ^^^ (~~~Bi &&& Bo)
  let Agi := Bi ^^^ (~~~Bo &&& Bu)
  let Ago := Bo ^^^ (~~~Bu &&& Ba)
  let Agu := Bu ^^^ (~~~Ba &&& Be)
  let Ba := rol (Ebe ^^^ De) 1
  let Be := rol (Egi ^^^ Di) 6
  let Bi := rol (Eko ^^^ Do) 25
  let Bo := rol (Emu ^^^ Du) 8
  let Bu := rol (Esa ^^^ Da) 18
  let Aka := Ba ^^^ (~~~Be &&& Bi)
  let Ake := Be ^^^ (~~~Bi &&& Bo)
  let Aki := Bi ^^^ (~~~Bo &&& Bu)
  let Ako := Bo ^^^ (~~~Bu &&& Ba)
  let Aku := Bu ^^^ (~~~Ba &&& Be)
  let Ba := rol (Ebu ^^^ Du) 27
  let Be := rol (Ega ^^^ Da) 4
  let Bi := rol (Eke ^^^ De) 10
  let Bo := rol (Emi ^^^ Di) 15
  let Bu := rol (Eso ^^^ Do) 24
  let Ama := Ba ^^^ (~~~Be &&& Bi)
  let Ame := Be ^^^ (~~~Bi &&& Bo)
  let Ami := Bi ^^^ (~~~Bo &&& Bu)
  let Amo := Bo ^^^ (~~~Bu &&& Ba)
  let Amu := Bu ^^^ (~~~Ba &&& Be)
  let Ba := rol (Ebi ^^^ Di) 30
  let Be := rol (Ego ^^^ Do) 23
  let Bi := rol (Eku ^^^ Du) 7
  let Bo := rol (Ema ^^^ Da) 9
  let Bu := rol (Ese ^^^ De) 2
  let Asa := Ba ^^^ (~~~Be &&& Bi)
  let Ase := Be ^^^ (~~~Bi &&& Bo)
  let Asi := Bi ^^^ (~~~Bo &&& Bu)
  let Aso := Bo ^^^ (~~~Bu &&& Ba)
  let Asu := Bu ^^^ (~~~Ba &&& Be)
  ⟨Aba, Abe, Abi, Abo, Abu, Aga, Age, Agi, Ago, Agu, Aka, Ake, Aki, Ako, Aku, Ama, Ame, Ami, Amo, Amu, Asa, Ase, Asi, Aso, Asu⟩

/-- keccak.go:99-235, one iteration (`round = 2 i`) -/
def keccakStep (i : Nat) (s : Lanes) : Go Lanes := do
  let rc ← idx rck8 (2 * i)
  let s := evenRound s rc
  let rc ← idx rck8 (2 * i + 1)
  pure (oddRound s rc)

/-- keccak.go:56-263 `KeccakF800`; the array `[25]uint32` is a list of 25 words, returned after the in-place update -/
def keccakF800 (state : List U32) : Go (List U32) := do
  let Aba ← idx state 0
  let Abe ← idx state 1
  let Abi ← idx state 2
  let Abo ← idx state 3
  let Abu ← idx state 4
  let Aga ← idx state 5
  let Age ← idx state 6
  let Agi ← idx state 7
  let Ago ← idx state 8
  let Agu ← idx state 9
  let Aka ← idx state 10
  let Ake ← idx state 11
  let Aki ← idx state 12
  let Ako ← idx state 13
  let Aku ← idx state 14
  let Ama ← idx state 15
  let Ame ← idx state 16
  let Ami ← idx state 17
  let Amo ← idx state 18
  let Amu ← idx state 19
  let Asa ← idx state 20
  let Ase ← idx state 21
  let Asi ← idx state 22
  let Aso ← idx state 23
  let Asu ← idx state 24
  let s ← forRange 0 11 ⟨Aba, Abe, Abi, Abo, Abu, Aga, Age, Agi, Ago, Agu, Aka, Ake, Aki, Ako, Aku, Ama, Ame, Ami, Amo, Amu, Asa, Ase, Asi, Aso, Asu⟩ keccakStep
  pure [s.ba, s.be, s.bi, s.bo, s.bu, s.ga, s.ge, s.gi, s.go, s.gu, s.ka, s.ke, s.ki, s.ko, s.ku, s.ma, s.me, s.mi, s.mo, s.mu, s.sa, s.se, s.si, s.so, s.su]

end Verif.Crypto
