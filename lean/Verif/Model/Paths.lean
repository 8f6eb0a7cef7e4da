import Verif.Model.Disk

/-! # Model of /repo/internal/common/filesystem.go and of the paths of /repo/internal/dag/dag.go

`path/filepath` of the standard library is modelled from its documentation, for systems whose separator is the slash. -/

set_option autoImplicit false

namespace Verif.Dag.Paths

/-- the texts between the slashes -/
def splitSlash (path : List Char) : List (List Char) :=
  path.foldr (fun c acc => if c = '/' then [] :: acc else match acc with | [] => [[c]] | w :: ws => (c :: w) :: ws) [[]]

/-- `filepath.Clean`, rules 1 to 4: an element after the cleaned ones, the last of which is the head of the list -/
def cleanStep (rooted : Bool) (stack : List (List Char)) (w : List Char) : List (List Char) :=
  if w = [] ∨ w = ['.'] then stack
  else if w = ['.', '.'] then
    match stack with
    | [] => if rooted then [] else [w]
    | top :: rest => if top = ['.', '.'] then w :: stack else rest
  else w :: stack

/-- elements with slashes between them -/
def joinSlash : List (List Char) → List Char
  | [] => []
  | [w] => w
  | w :: ws => w ++ '/' :: joinSlash ws

/-- `filepath.Clean` -/
def clean (path : List Char) : List Char :=
  let rooted := path.head? == some '/'
  let out := joinSlash ((splitSlash path).foldl (cleanStep rooted) []).reverse
  if rooted then '/' :: out else if out = [] then ['.'] else out

/-- `filepath.Join`: empty elements at the front are dropped, the rest is joined with slashes and cleaned -/
def join : List (List Char) → List Char
  | [] => []
  | e :: es => if e = [] then join es else clean (joinSlash (e :: es))

/-- `filepath.Dir`: what precedes the text after the last slash, cleaned -/
def dirOf (path : List Char) : List Char := clean (path.reverse.dropWhile (· ≠ '/')).reverse

/-- filesystem.go:10-19. `home` is the environment variable, `user` the home directory of `user.Current()` if that succeeds; `joinOs` is
`filepath.Join` of the system. -/
def defaultDir (joinOs : List (List Char) → List Char) (windows : Bool) (home : List Char) (user : Option (List Char)) (name : List Char) : List Char :=
  let home := match user with | some h => h | none => home
  if windows then joinOs [home, "AppData".toList, "PowCache".toList]
  else joinOs [home, name]

/-- dag.go:48 -/
def cacheName (d : Config) (seed : List Byte) : List Char :=
  ("cache-" ++ d.name ++ "-R" ++ toString d.revision ++ "-" ++ hexString seed).toList

/-- dag.go:55 -/
def l1Name (d : Config) (seed : List Byte) : List Char :=
  ("l1-" ++ d.name ++ "-R" ++ toString d.revision ++ "-" ++ hexString seed).toList

/-- dag.go:47-52 with `filepath.Join` -/
def cachePath (d : Config) (seed : List Byte) : List Char := join [d.storageDir.toList, cacheName d seed]

/-- dag.go:54-59 with `filepath.Join` -/
def l1Path (d : Config) (seed : List Byte) : List Char := join [d.storageDir.toList, l1Name d seed]

/-- mmap.go:127: the temporary file for a path -/
def tempPath (path : List Char) (number : Nat) : List Char := path ++ ('.' :: (toString number).toList)

end Verif.Dag.Paths
