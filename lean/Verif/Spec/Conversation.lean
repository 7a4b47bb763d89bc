import Verif.Spec.Join

/-!
# Device and network after a join

What the network knows of a device: its root keys and identifiers, the last join request it heard and the join accept
with which it answered.  From these it has a session of its own.
-/

namespace LDL.Spec

/-- A session as the network keeps it. -/
structure NetSession where
  v11 : Bool
  keys : SessionKeys
  devAddr : Nat

/-- The session the network makes of a join request and its answer. -/
def netSession (cfg : Cfg) (d : Device) (r : JoinRequest) (ja : JoinAccept) : NetSession :=
  let v11 := cfg.v11 && ja.optNeg
  { v11 := v11
    keys := sessionKeys cfg.E v11 d.appKey (d.root cfg.v11) ja.joinNonce ja.netID d.joinEUI r.devNonce
    devAddr := ja.devAddr }

/-- The last join request handed to the radio. -/
def lastRequest (log : List (Nvm × Event)) : Option JoinRequest :=
  ((log.filterMap sentIn).filterMap parseJoinRequest).getLast?

/-- The network answered the last join request with `ja`. -/
def Answered (cfg : Cfg) (d : Device) (log : List (Nvm × Event)) (r : JoinRequest) (ja : JoinAccept) : Prop :=
  lastRequest log = some r ∧
    ∃ packet, AuthenticJoin cfg.E cfg.v11 (d.root cfg.v11) d.devEUI d.joinEUI r.devNonce packet ja

/-- The network, in session `s` and expecting the counter `fcnt`, accepts `phy` sent with setting `t`. -/
def NetAccepts (cfg : Cfg) (d : Device) (s : NetSession) (fcnt conf : Nat) (t : TxSetting) (phy : List UInt8) : Prop :=
  ∃ dr ch msg, t.sf = (d.region.convertRate dr).sf ∧ t.bw = (d.region.convertRate dr).bw ∧
    receiveUp cfg.E s.v11 s.keys s.devAddr fcnt conf dr ch phy = some msg

/-- `phy`, sent with setting `t` when `n` is in storage and `log` is what happened before: the network accepts it in the
session of the last join request and its answer, at the stored counter less one. -/
def Understood (cfg : Cfg) (d : Device) (log : List (Nvm × Event)) (n : Nvm) (t : TxSetting) (phy : List UInt8) : Prop :=
  ∃ r ja fcnt, Answered cfg d log r ja ∧ n.up = (fcnt + 1) % 4294967296 ∧ fcnt < 4294967296 ∧
    (fcnt < 65536 → phy.length ≠ 244 → ∀ conf, ((netSession cfg d r ja).v11 = true → conf = 0) →
      NetAccepts cfg d (netSession cfg d r ja) fcnt conf t phy)

/-- A message a network may send in a session. -/
structure NetSendable (s : NetSession) (f : DataFrame) : Prop where
  mtype : f.mtype = 3 ∨ f.mtype = 5
  devAddr : f.devAddr = s.devAddr
  fopts : f.fopts.length ≤ 15
  port : ∀ p x, f.payload = some (p, x) → p < 256
  once : f.fopts = [] ∨ f.payload.map Prod.fst ≠ some 0

end LDL.Spec
