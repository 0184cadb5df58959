/-!
# Common outcome type and memory primitives of the model

Nothing here models a particular function of s2e-core; these are the conventions the other model files use.
-/
namespace S2E

/-- `unsigned char` / `uint8_t`. -/
abbrev Byte := UInt8

/-- Result of executing a piece of C++ code.
`ok a`   : it returned `a`;
`ub`     : it executed an operation whose behaviour is undefined (out-of-range access, end iterator dereference, ...);
`throws` : it raised an exception;
`stuck`  : the fuel of the modelled loop ran out (a loop that is `stuck` for every fuel does not terminate). -/
inductive Res (α : Type) where
  | ok (a : α)
  | ub
  | throws
  | stuck
  deriving Repr, DecidableEq

namespace Res

/-- Sequencing: the second computation runs only if the first returned normally. -/
def bind {α β : Type} (x : Res α) (f : α → Res β) : Res β :=
  match x with
  | ok a => f a
  | ub => ub
  | throws => throws
  | stuck => stuck

instance : Monad Res where
  pure := ok
  bind := bind

@[simp] theorem pure_eq {α : Type} (a : α) : (pure a : Res α) = ok a := rfl
@[simp] theorem bind_ok {α β : Type} (a : α) (f : α → Res β) : (ok a >>= f) = f a := rfl
@[simp] theorem bind_ub {α β : Type} (f : α → Res β) : ((ub : Res α) >>= f) = ub := rfl
@[simp] theorem bind_throws {α β : Type} (f : α → Res β) : ((throws : Res α) >>= f) = throws := rfl
@[simp] theorem bind_stuck {α β : Type} (f : α → Res β) : ((stuck : Res α) >>= f) = stuck := rfl

end Res

/-- `memcpy(&dst[d], &src[s], n)` between two distinct arrays given as byte lists; undefined behaviour if either range
leaves its array. -/
def memcpy (dst : List Byte) (d : Nat) (src : List Byte) (s n : Nat) : Res (List Byte) :=
  if d + n ≤ dst.length ∧ s + n ≤ src.length then
    .ok (dst.take d ++ ((src.drop s).take n ++ dst.drop (d + n)))
  else .ub

end S2E
