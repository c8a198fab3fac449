/-!
# Shared outcome type

`Res` is the result of a C++ (or Python) operation: a normal result, a thrown exception, or
undefined behaviour.  Undefined behaviour is kept as a distinct outcome so that a theorem saying
"the result is `ok …`" also says "no undefined behaviour and no exception".
-/
namespace Verif

/-- Outcome of an operation of the modelled program. -/
inductive Res (α : Type _) where
  | ok (a : α) : Res α
  | throws : Res α
  | ub : Res α
  deriving Repr, DecidableEq

namespace Res

/-- Sequencing: exceptions and undefined behaviour propagate. -/
def bind {α β : Type _} (r : Res α) (f : α → Res β) : Res β :=
  match r with
  | ok a => f a
  | throws => throws
  | ub => ub

instance : Monad Res where
  pure := ok
  bind := bind

@[simp] theorem bind_ok {α β : Type _} (a : α) (f : α → Res β) : (ok a).bind f = f a := rfl
@[simp] theorem bind_throws {α β : Type _} (f : α → Res β) : (throws : Res α).bind f = throws := rfl
@[simp] theorem bind_ub {α β : Type _} (f : α → Res β) : (ub : Res α).bind f = ub := rfl

end Res
end Verif
