import Verif.Spec.Server
import Verif.Spec.Restart

/-!
# Joining, as the LoRaWAN specifications describe it

LoRaWAN 1.0.4 sections 6.2.5, 6.2.6 and LoRaWAN 1.1 sections 6.1.1.3, 6.1.1.4, 6.2.3.  `E key` is AES encryption under
`key`: a join server encrypts a join accept with the AES decryption, so that a device opens it with the encryption.
-/

namespace LDL.Spec

/-- A join accept in the clear, of a received physical payload: all but the first octet is en- or decrypted in one or
two blocks. -/
def openJoin (E : List UInt8 → List UInt8) (phy : List UInt8) : Option (List UInt8) :=
  if phy.length = 17 then some (phy.take 1 ++ E (phy.drop 1))
  else if phy.length = 33 then some (phy.take 1 ++ E ((phy.drop 1).take 16) ++ E (phy.drop 17))
  else none

/-- JSIntKey (1.1 section 6.1.1.3): `aes128_encrypt(NwkKey, 0x06 | DevEUI | pad16)`. -/
def jsIntKey (E : List UInt8 → List UInt8 → List UInt8) (nwkKey devEUI : List UInt8) : List UInt8 :=
  E nwkKey ([6] ++ devEUI.reverse ++ List.replicate 7 0)

/-- The MIC of a join accept.  In 1.0, and in 1.1 with OptNeg unset, over the message under the network root key; in
1.1 with OptNeg set under JSIntKey over `JoinReqType | JoinEUI | DevNonce | message`, the type being 0xff. -/
def joinAcceptMic (E : List UInt8 → List UInt8 → List UInt8) (v11 : Bool) (nwkKey jsInt joinEUI : List UInt8)
    (devNonce : Nat) (ja : JoinAccept) : Nat :=
  if v11 = true ∧ ja.optNeg = true then micOf (E jsInt) ([0xff] ++ joinEUI.reverse ++ le 2 devNonce ++ ja.body)
  else micOf (E nwkKey) ja.body

/-- `phy` is the join accept `ja` in answer to the join request with DevNonce `devNonce`. -/
structure AuthenticJoin (E : List UInt8 → List UInt8 → List UInt8) (v11 : Bool) (nwkKey devEUI joinEUI : List UInt8)
    (devNonce : Nat) (phy : List UInt8) (ja : JoinAccept) : Prop where
  wf : ja.WF
  opened : openJoin (E nwkKey) phy = some ja.encode
  mic : ja.mic = joinAcceptMic E v11 nwkKey (jsIntKey E nwkKey devEUI) joinEUI devNonce ja

/-- The session keys of LoRaWAN 1.0 (6.2.5): `NwkSKey = aes128_encrypt(key, 0x01 | JoinNonce | NetID | DevNonce | pad)`,
`AppSKey` with 0x02. -/
def sessionKeys10 (E : List UInt8 → List UInt8 → List UInt8) (key : List UInt8) (joinNonce netID devNonce : Nat) :
    SessionKeys :=
  let block := fun tag : UInt8 => [tag] ++ le 3 joinNonce ++ le 3 netID ++ le 2 devNonce ++ List.replicate 7 0
  { fNwkSInt := E key (block 1), sNwkSInt := E key (block 1), nwkSEnc := E key (block 1), appS := E key (block 2) }

/-- The session keys of LoRaWAN 1.1 (6.2.3.1.1): `FNwkSIntKey = aes128_encrypt(NwkKey, 0x01 | JoinNonce | JoinEUI |
DevNonce | pad)`, SNwkSIntKey with 0x03, NwkSEncKey with 0x04, and AppSKey with 0x02 under AppKey. -/
def sessionKeys11 (E : List UInt8 → List UInt8 → List UInt8) (appKey nwkKey : List UInt8) (joinNonce : Nat)
    (joinEUI : List UInt8) (devNonce : Nat) : SessionKeys :=
  let block := fun tag : UInt8 => [tag] ++ le 3 joinNonce ++ joinEUI.reverse ++ le 2 devNonce ++ List.replicate 2 0
  { fNwkSInt := E nwkKey (block 1), sNwkSInt := E nwkKey (block 3), nwkSEnc := E nwkKey (block 4)
    appS := E appKey (block 2) }

/-- The session keys, by protocol version of the session. -/
def sessionKeys (E : List UInt8 → List UInt8 → List UInt8) (v11 : Bool) (appKey nwkKey : List UInt8)
    (joinNonce netID : Nat) (joinEUI : List UInt8) (devNonce : Nat) : SessionKeys :=
  if v11 then sessionKeys11 E appKey nwkKey joinNonce joinEUI devNonce
  else sessionKeys10 E nwkKey joinNonce netID devNonce

/-- The network root key: in 1.0 there is only AppKey. -/
def Device.root (d : Device) (v11 : Bool) : List UInt8 := if v11 then d.nwkKey else d.appKey

/-- What an event hands to the radio. -/
def sentIn : Nvm × Event → Option (List UInt8)
  | (_, .transmit _ _ b) => some b
  | _ => none

/-- The last thing handed to the radio. -/
def lastSent (log : List (Nvm × Event)) : Option (List UInt8) := (log.filterMap sentIn).getLast?

/-- A life in which the device is never activated by personalisation. -/
inductive OtaaLife (cfg : Cfg) (d : Device) : Mac → Nvm → List (Nvm × Event) → Prop
  | first (n : Nvm) (e : Env) (hn : n.session = none) (ha : ArgOk (d.arg n)) : OtaaLife cfg d (d.boot cfg n e) n []
  | call {m : Mac} {n : Nvm} {log : List (Nvm × Event)} (h : OtaaLife cfg d m n log) (e : Env) (c : Call) (hc : c.WF)
      (hp : Proper c) (ho : ∀ a, c ≠ .abp a) :
      OtaaLife cfg d (step cfg m e c).1 (n.after (newEvents m (step cfg m e c).1))
        (log ++ stamps n (newEvents m (step cfg m e c).1))
  | crash {m : Mac} {n : Nvm} {log : List (Nvm × Event)} (h : OtaaLife cfg d m n log) (e : Env) (c : Call) (hc : c.WF)
      (hp : Proper c) (ho : ∀ a, c ≠ .abp a) (k : Nat) (e' : Env) :
      OtaaLife cfg d (d.boot cfg (n.after ((newEvents m (step cfg m e c).1).take k)) e')
        (n.after ((newEvents m (step cfg m e c).1).take k))
        (log ++ stamps n ((newEvents m (step cfg m e c).1).take k))

theorem OtaaLife.life {cfg : Cfg} {d : Device} {m : Mac} {n : Nvm} {log : List (Nvm × Event)}
    (h : OtaaLife cfg d m n log) : Life cfg d m n log := by
  induction h with
  | first n e hn ha => exact .first n e hn ha
  | call _ e c hc hp _ ih => exact .call ih e c hc hp
  | crash _ e c hc hp _ k e' ih => exact .crash ih e c hc hp k e'

end LDL.Spec
