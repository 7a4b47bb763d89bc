import Verif.Spec.Session
import Verif.Spec.LoRaWAN

/-!
# Restarts

A device with storage that survives a power loss.  The application stores what the documentation tells it to store
(include/ldl_mac.h: DEV_NONCE_UPDATED, JOIN_COMPLETE and SESSION_UPDATED), in the order it is told, and starts again
with what it stored.  Power may be lost at any moment, also between two events of one call.
-/

namespace LDL
namespace Spec

/-- What survives a power loss. -/
structure Nvm where
  devNonce : Nat := 0
  joinNonce : Nat := 0
  session : Option Session := none

/-- What the application does with an event. -/
def Nvm.store (n : Nvm) : Event → Nvm
  | .devNonceUpdated x => { n with devNonce := x }
  | .joinComplete x _ _ => { n with joinNonce := x }
  | .sessionUpdated s => { n with session := some s }
  | _ => n

/-- Several events. -/
def Nvm.after (n : Nvm) (l : List Event) : Nvm := l.foldl Nvm.store n

/-- The events, each with what was in storage just before it. -/
def stamps : Nvm → List Event → List (Nvm × Event)
  | _, [] => []
  | n, ev :: rest => (n, ev) :: stamps (n.store ev) rest

/-- What is written into the device when it is made. -/
structure Device where
  region : Region
  joinEUI : Bytes
  devEUI : Bytes
  appKey : Bytes
  nwkKey : Bytes

/-- The arguments of `LDL_MAC_init`. -/
def Device.arg (d : Device) (n : Nvm) : InitArg :=
  { session := n.session, joinEUI := d.joinEUI, devEUI := d.devEUI, devNonce := n.devNonce, joinNonce := n.joinNonce
    appKey := d.appKey, nwkKey := d.nwkKey }

/-- Power on. -/
def Device.boot (cfg : Cfg) (d : Device) (n : Nvm) (e : Env) : Mac := init cfg d.region (d.arg n) e

/-- The events of a call. -/
def newEvents (m m' : Mac) : List Event := m'.out.drop m.out.length

/-- A null payload pointer is given only with length zero. -/
def Proper : Call → Prop
  | .data _ _ payload len _ => payload = none → len = 0
  | _ => True

/-- The life of a device: its present state, its storage, and all events since it was made, each with what was in
storage just before it. -/
inductive Life (cfg : Cfg) (d : Device) : Mac → Nvm → List (Nvm × Event) → Prop
  | first (n : Nvm) (e : Env) (hn : n.session = none) (ha : ArgOk (d.arg n)) : Life cfg d (d.boot cfg n e) n []
  /-- A call; all its events are stored. -/
  | call {m : Mac} {n : Nvm} {log : List (Nvm × Event)} (h : Life cfg d m n log) (e : Env) (c : Call) (hc : c.WF)
      (hp : Proper c) :
      Life cfg d (step cfg m e c).1 (n.after (newEvents m (step cfg m e c).1))
        (log ++ stamps n (newEvents m (step cfg m e c).1))
  /-- A call interrupted by a power loss after `k` of its events, and the restart. -/
  | crash {m : Mac} {n : Nvm} {log : List (Nvm × Event)} (h : Life cfg d m n log) (e : Env) (c : Call) (hc : c.WF)
      (hp : Proper c) (k : Nat) (e' : Env) :
      Life cfg d (d.boot cfg (n.after ((newEvents m (step cfg m e c).1).take k)) e')
        (n.after ((newEvents m (step cfg m e c).1).take k))
        (log ++ stamps n ((newEvents m (step cfg m e c).1).take k))

/-! ### What was sent, over the whole life -/

/-- The DevNonce values of the join requests transmitted. -/
def nonces (log : List (Nvm × Event)) : List Nat :=
  log.filterMap fun x => match x.2 with
    | .transmit _ _ b => (parseJoinRequest b).map JoinRequest.devNonce
    | _ => none

/-- The join nonces reported with JOIN_COMPLETE. -/
def joinNonces (log : List (Nvm × Event)) : List Nat :=
  log.filterMap fun x => match x.2 with
    | .joinComplete n _ _ => some n
    | _ => none

/-- The uplink counter of the stored session: the one the next uplink will have. -/
def Nvm.up (n : Nvm) : Nat := match n.session with
  | some s => s.up
  | none => 0

/-- The uplinks transmitted in the present session, given those before an event: the counter of each, which is one
less than the one stored, and the bytes.  A new session begins when a session that is not joined is stored. -/
def uplinksStep (l : List (Nat × Bytes)) (x : Nvm × Event) : List (Nat × Bytes) :=
  match x.2 with
  | .transmit _ _ b => if (parseJoinRequest b).isSome then l else l ++ [(x.1.up - 1, b)]
  | .sessionUpdated s => if s.joined then l else []
  | _ => l

/-- The uplinks transmitted in the present session. -/
def uplinks (log : List (Nvm × Event)) : List (Nat × Bytes) := log.foldl uplinksStep []

/-- No session reported so far has used up the 32 bit uplink counter. -/
def NoWrap (log : List (Nvm × Event)) : Prop := ∀ n s, (n, Event.sessionUpdated s) ∈ log → s.up < 4294967295

end Spec
end LDL
