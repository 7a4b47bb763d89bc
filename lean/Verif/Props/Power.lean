import Verif.Props.Transmit
import Verif.Lemmas.Effects

/-!
# Transmit power: C52
-/

namespace LDL
open Spec

/-- The maximum EIRP in dBm for each of the sixteen values of the TXParamSetup command (LoRaWAN 1.0.4, table 33). -/
def Spec.eirpCode : List Int := [8, 10, 12, 13, 14, 16, 18, 20, 21, 24, 26, 27, 29, 30, 33, 36]

/-- The largest EIRP a network may have set in a session, in hundredths of dBm: the low four bits of the TXParamSetup
byte, in the regions that have the command. -/
def Spec.networkEirp (s : Session) : Option Int :=
  if hasTxParam s.region then (eirpCode[s.txParamSetup % 16]?).map (· * 100) else none

/-- EIRP of a TXPower index in hundredths of dBm: two dB less per step, down to the last index of the region. -/
def Spec.eirpOf (r : Region) (i : Nat) : Int := maxEirp r - 200 * (min i (maxPowerIndex r) : Nat)

theorem networkEirp_some {s : Session} (h : hasTxParam s.region = true) : (networkEirp s).isSome = true := by
  unfold networkEirp eirpCode
  rw [if_pos h, Option.isSome_map]
  rw [List.getElem?_eq_getElem (by simp; omega)]
  rfl

theorem getTXPower_eirp (r : Region) (i : Nat) : r.getTXPower i = eirpOf r i := by
  unfold Region.getTXPower eirpOf
  cases r <;> simp only [maxEirp, maxPowerIndex] <;> split <;> omega

theorem txEirp_eq (m : Mac) :
    txEirp m = match networkEirp m.ctx with
      | some l => min l (eirpOf m.ctx.region m.tx.power)
      | none => eirpOf m.ctx.region m.tx.power := by
  have h15 : m.ctx.txParamSetup &&& 0xf = m.ctx.txParamSetup % 16 := Nat.and_two_pow_sub_one_eq_mod _ 4
  have hcode : ∀ i < 16, eirpCode[i]? = some (maxEIRP i) := by decide
  unfold txEirp networkEirp
  rw [getTXPower_eirp, txParam_eq, h15]
  by_cases h : hasTxParam m.ctx.region = true
  · rw [if_pos h, if_pos h, hcode _ (Nat.mod_lt _ (by decide))]
    simp only [Option.map_some]
    generalize maxEIRP (m.ctx.txParamSetup % 16) * 100 = l
    generalize eirpOf m.ctx.region m.tx.power = k
    rw [Int.min_def]
    split <;> split <;> omega
  · rw [if_neg h, if_neg h]

/-- A transmission that is made, is made with the setting of the state. -/
theorem transmits_setting {cfg : Cfg} {m : Mac} {e : Env} {c : Call} {t : Nat} {s : TxSetting} {b : Bytes}
    (h : Event.transmit t s b ∈ newEvents m (step cfg m e c).1) :
    t = e.done ∧ s = txSetting m ∧ b = m.buffer.take m.bufferLen := by
  obtain ⟨l, h1, h2⟩ := step_emits cfg e m c
  have hm : Event.transmit t s b ∈ l := by
    unfold newEvents at h
    rwa [h1, List.drop_left] at h
  have := h2 _ hm
  generalize hx : Event.transmit t s b = x at this
  cases this with
  | transmit hs hi ht => unfold transmitEvent at hx; cases hx; exact ⟨rfl, rfl, rfl⟩
  | info _ _ _ _ hi => rw [← hx] at hi; cases hi
  | _ => cases hx

/-- **C52**: whatever state the device is in, a transmission is made with at most the maximum power of the region, and
at most the power the network has set. -/
theorem c52_bounded {cfg : Cfg} {m : Mac} {e : Env} {c : Call} {t : Nat} {s : TxSetting} {b : Bytes}
    (h : Event.transmit t s b ∈ newEvents m (step cfg m e c).1) :
    s.eirp ≤ maxEirp m.ctx.region ∧ ∀ l, networkEirp m.ctx = some l → s.eirp ≤ l := by
  obtain ⟨_, h, _⟩ := transmits_setting h
  have hs : s.eirp = txEirp m := by rw [h]; rfl
  have hle : eirpOf m.ctx.region m.tx.power ≤ maxEirp m.ctx.region := by unfold eirpOf; omega
  rw [hs, txEirp_eq]
  refine ⟨?_, fun l hl => ?_⟩
  · cases networkEirp m.ctx with
    | none => exact hle
    | some l => simp only []; omega
  · rw [hl]; simp only []; omega

/-- **C52**: a data frame is sent with exactly the power set in the session at the time of the request, or that set by
the network if it is less. -/
theorem c52_data {cfg : Cfg} (hE : ∀ k, BlockFn (cfg.E k)) {m : Mac} (hr : Reachable cfg m) (e : Env)
    (confirmed : Bool) (port : Nat) (payload : Option Bytes) (len : Nat) (opts : Option DataOpts)
    (hw : (Call.data confirmed port payload len opts).WF)
    (ha : Accepted (step cfg m e (.data confirmed port payload len opts)).2)
    (calls : List (Env × Call)) (hc : ∀ x ∈ calls, x.2.WF) (s : TxSetting) (frame : Bytes)
    (hx : (s, frame) ∈ sentBy cfg (step cfg m e (.data confirmed port payload len opts)).1 calls) :
    s.eirp = match networkEirp m.ctx with
      | some l => min l (eirpOf m.ctx.region m.ctx.power)
      | none => eirpOf m.ctx.region m.ctx.power := by
  have hs := sent_setting hE hr e confirmed port payload len opts hw ha calls hc _ hx
  obtain ⟨freq, ch, rate, _, _, _, _, hsel, _, hstep⟩ := accepted_send e confirmed port payload len opts ha
  obtain ⟨x, hx, _, _, a3, a4, _⟩ := sendData_fields cfg e _ confirmed port payload len opts _ _ (congrArg Prod.fst hstep)
  obtain ⟨pc, hpc⟩ := (putAnswers_inv cfg { m.ctx with up := u32 (m.ctx.up + 1) } (dataOptions opts)).session
  have hctx : x.ctx = { (putAnswers cfg { m.ctx with up := u32 (m.ctx.up + 1) } (dataOptions opts)).2 with } := by
    rw [hx]; rfl
  generalize (step cfg m e (.data confirmed port payload len opts)).1 = m' at hs a3 a4
  simp only [Prod.mk.injEq] at hs
  have h1 : s.eirp = txEirp m' := by rw [hs.1]; rfl
  have h2 : m'.ctx.region = m.ctx.region ∧ m'.ctx.txParamSetup = m.ctx.txParamSetup := by
    rw [a4, hctx, hpc]; exact ⟨rfl, rfl⟩
  have h3 : m'.tx.power = m.ctx.power := by rw [a3, hx]
  rw [h1, txEirp_eq, h2.1, h3]
  unfold networkEirp
  rw [h2.1, h2.2]

/-- An AU915 device that was told to use at most 14 dBm. -/
def Demo.limited : Mac :=
  run Demo.cfg (init Demo.cfg .au915 { session := some { (init Demo.cfg .au915 {} (Demo.at_ 0)).ctx with
    joined := true, txParamSetup := 4, rate := 2, magic := 0xdb } } (Demo.at_ 0)) Demo.boot

/-- Its frames are sent with 14 dBm, though the region allows 30. -/
example : networkEirp Demo.limited.ctx = some 1400 ∧ eirpOf .au915 Demo.limited.ctx.power = 3000 ∧
    (sentBy Demo.cfg (step Demo.cfg Demo.limited (Demo.at_ 30000) (.data false 1 none 0 none)).1 (Demo.cycle 30000)).map
      (·.1.eirp) = [1400] := by
  decide +kernel

/-- Without such a limit: the first steps of EU868. -/
example : networkEirp Demo.joined.ctx = none ∧
    (sentBy Demo.cfg (step Demo.cfg (step Demo.cfg Demo.joined (Demo.at_ 30000) (.setPower 2)).1 (Demo.at_ 30000)
      (.data false 1 none 0 none)).1 (Demo.cycle 30000)).map (·.1.eirp) = [1200] := by
  decide +kernel

end LDL
