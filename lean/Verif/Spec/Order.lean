import Verif.Spec.Join

/-!
# In which order a device asks to join, joins, sends and leaves
-/

namespace LDL.Spec

/-- How far a device is with joining a network. -/
inductive Standing
  /-- no member, and no join request is without answer -/
  | out
  /-- it has sent a join request -/
  | asked
  /-- JOIN_COMPLETE was reported, the session is not yet stored -/
  | answered
  /-- the session is stored -/
  | member
deriving DecidableEq

/-- What may happen when.  Data are sent by members only; JOIN_COMPLETE is for a join request that had no answer yet; the
session of a member is stored after JOIN_COMPLETE; a member does not ask to join, it has to leave first, and that is stored. -/
def Standing.next (p : Standing) : Event → Option Standing
  | .transmit _ _ b =>
    if (parseJoinRequest b).isSome then (if p = .member then none else some .asked)
    else (if p = .member then some .member else none)
  | .joinComplete _ _ _ => if p = .asked then some .answered else none
  | .sessionUpdated s =>
    if s.joined then (if p = .answered ∨ p = .member then some .member else none)
    else (if p = .asked then some .asked else some .out)
  | _ => some p

/-- The standing after what happened; `none` if something happened out of order. -/
def standing (log : List (Nvm × Event)) : Option Standing :=
  log.foldl (fun p x => p.bind fun p => p.next x.2) (some .out)

end LDL.Spec
