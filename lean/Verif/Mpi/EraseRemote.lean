import Verif.Bodies.Model
/-!
# Erasing the bodies of other processes after a split

Transcribes the loop of `splitScene` in which a worker erases the remote bodies that are not near its own (`py/mpy.py` 516–527), on top of
the body container of `Verif/Bodies/Model.lean`.

Simplification: the attributes of bodies the loop reads but does not change are functions of the id.
-/
namespace Verif.Mpi.EraseRemote
open Verif Verif.Bodies

/-- what the loop reads of the body with a given id: `bounded`, whether `subdomain` differs from the rank, and whether it is a grid node
with a bounded `PFacet` or connection (mpy.py 520–525) -/
structure Att where
  bounded : Int → Bool
  remote : Int → Bool
  connected : Int → Bool

/-- mpy.py 519–527, one round.  `O.bodies[id]` is `None` for a vacant id; reading its attributes is an exception. -/
def eraseStep (A : Att) (id : Int) : M Unit := fun s =>
  match pyGetitem s id with
  | .ok (some _) =>
    if !A.bounded id && A.remote id then
      if !A.connected id then (do let _ ← erase id false; pure () : M Unit) s else .ok s ()
    else .ok s ()
  | .ok none => .throws s
  | .throws => .throws s
  | .ub => .ub

/-- mpy.py 517–527 -/
def eraseRemote (A : Att) : M Unit := fun s => forEach (eraseStep A) ((List.range s.slots.length).map fun (i : Nat) => (i : Int)) s

end Verif.Mpi.EraseRemote
