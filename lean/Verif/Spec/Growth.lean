/-! # Specification: which epochs have files after a series of requests -/

set_option autoImplicit false

namespace Verif.Spec.Growth

/-- A request for an epoch that has a file changes nothing. A request for another one removes what is three or more epochs older and adds
the epoch. -/
def request (s : List Nat) (e : Nat) : List Nat := if e ∈ s then s else e :: s.filter fun k => e < k + 3

/-- after requests in this order, from an empty directory -/
def kept (es : List Nat) : List Nat := es.foldl request []

end Verif.Spec.Growth
