import Verif.Spec.Restart

/-!
# Acknowledgements owed: C108

What an observer who sees the calls, the radio and the messages accepted knows about the two flags the application can
ask for: `LDL_MAC_getAckPending`, an acknowledgement is owed to the network, and `LDL_MAC_getFPending`, the network has
more to send.
-/

namespace LDL
namespace Spec

/-- The radio reports that the transmission is complete. -/
def TxCompletes (m : Mac) (e : Env) (c : Call) : Prop :=
  c = .process ∧ m.state = .tx ∧ m.inputState = true ∧ e.statusTx = true

/-- The radio reports a packet in a receive window, and it is the data message `f` for this device.  C15 and C16 say which
packets those are. -/
def HearsData (cfg : Cfg) (m : Mac) (e : Env) (c : Call) (f : Frame.Down) : Prop :=
  c = .process ∧ (m.state = .rx1 ∨ m.state = .rx2) ∧ m.inputState = true ∧ e.statusRx = true ∧
  (Ops.receiveFrame cfg m e.rxBuffer e.received.length).1 = some f ∧
  (f.type = Frame.DATA_CONFIRMED_DOWN ∨ f.type = Frame.DATA_UNCONFIRMED_DOWN)

/-- The device leaves its network. -/
def Leaves (m : Mac) (c : Call) : Prop := c = .forget ∧ m.ctx.joined = true

/-- The two flags. -/
structure Flags where
  ack : Bool
  more : Bool
  deriving DecidableEq

/-- How the flags change in one call: a data message says whether it is to be acknowledged and whether there is more; a
completed transmission settles the acknowledgement; nothing is owed to a network that has been left. -/
structure FlagsChange (cfg : Cfg) (m : Mac) (e : Env) (c : Call) (o o' : Flags) : Prop where
  heard : ∀ f, HearsData cfg m e c f → o' = ⟨decide (f.type = Frame.DATA_CONFIRMED_DOWN), f.pending⟩
  sent : TxCompletes m e c → o' = { o with ack := false }
  left : Leaves m c → o' = ⟨false, false⟩
  kept : (∀ f, ¬ HearsData cfg m e c f) → ¬ TxCompletes m e c → ¬ Leaves m c → o' = o

/-- The flags of a device. -/
def flags (m : Mac) : Flags := ⟨m.pendingACK, m.fPending⟩

/-- During `calls` no transmission is completed, no data message accepted, and the network not left. -/
def Undisturbed (cfg : Cfg) : Mac → List (Env × Call) → Prop
  | _, [] => True
  | m, (e, c) :: rest => (∀ f, ¬ HearsData cfg m e c f) ∧ ¬ TxCompletes m e c ∧ ¬ Leaves m c ∧
      Undisturbed cfg (step cfg m e c).1 rest

/-- During `calls` no data message is accepted. -/
def NothingHeard (cfg : Cfg) : Mac → List (Env × Call) → Prop
  | _, [] => True
  | m, (e, c) :: rest => (∀ f, ¬ HearsData cfg m e c f) ∧ NothingHeard cfg (step cfg m e c).1 rest

/-- The ACK bit of a data message: bit 5 of FCtrl, the byte after MHDR and DevAddr (section 4.3.1). -/
def ackBit (frame : Bytes) : Bool := (frame.getD 5 0).toNat.testBit 5

end Spec
end LDL
