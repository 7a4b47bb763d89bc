import Verif.Props.Uplink
import Verif.Props.Transmit

/-!
# The payload size reported: C42
-/

namespace LDL
open Spec

theorem mtuRate_same {m : Mac} (hw : ∀ i, m.ctx.chConfig i < 4294967296)
    (hrate : ∀ ch f lo hi, ¬ Masked m.ctx ch → chan m.ctx ch = some (f, lo, hi) → lo ≤ m.ctx.rate ∧ m.ctx.rate ≤ hi) :
    mtuRate m = m.ctx.rate := by
  unfold mtuRate
  have : ∀ l : List Nat, (∀ i ∈ l, i < m.ctx.region.numChannels) → l.foldl (fun rate i =>
      if channelIsMasked m.ctx.chMask m.ctx.region i then rate
      else
        match getChannel m.ctx i with
        | some c => if c.freq > 0 then requiredRate rate c.minRate c.maxRate else rate
        | none => rate) m.ctx.rate = m.ctx.rate := by
    intro l
    induction l with
    | nil => intro _; rfl
    | cons i l ih =>
      intro h
      rw [List.foldl_cons]
      have hi : (if channelIsMasked m.ctx.chMask m.ctx.region i then m.ctx.rate
          else
            match getChannel m.ctx i with
            | some c => if c.freq > 0 then requiredRate m.ctx.rate c.minRate c.maxRate else m.ctx.rate
            | none => m.ctx.rate) = m.ctx.rate := by
        by_cases hm : channelIsMasked m.ctx.chMask m.ctx.region i = true
        · rw [if_pos hm]
        · rw [if_neg hm]
          have hm' : ¬ Masked m.ctx i := fun hh => hm ((channelIsMasked_iff m.ctx i (h i (by simp))).2 hh)
          cases hc : getChannel m.ctx i with
          | none => rfl
          | some c =>
            simp only []
            by_cases hf : c.freq > 0
            · rw [if_pos hf]
              have := hrate i c.freq c.minRate c.maxRate hm'
                ((getChannel_spec m.ctx i (hw i) _ _ _).1 ⟨c, hc, hf, rfl, rfl, rfl⟩)
              unfold requiredRate
              rw [if_neg (by omega), if_neg (by omega)]
            · rw [if_neg hf]
      rw [hi]
      exact ih fun j hj => h j (by simp [hj])
  exact this _ fun i hi => List.mem_range.1 hi

theorem pending_size (s : Session) (t : CmdType) :
    (if commandIsPending s t then MacCmd.sizeofCommandUp t else 0) = if Due s t then MacCmd.sizeofCommandUp t else 0 := by
  by_cases h : Due s t
  · rw [if_pos h, if_pos ((commandIsPending_iff s t).2 h)]
  · rw [if_neg h, if_neg (fun hh => h ((commandIsPending_iff s t).1 hh))]

theorem flat_if {p : Prop} [Decidable p] (c : UpCmd) (k : Nat) (h : (encodeUp c).length = k) :
    ((if p then [c] else []).flatMap encodeUp).length = if p then k else 0 := by
  by_cases hp : p
  · rw [if_pos hp, if_pos hp]
    simpa using h
  · rw [if_neg hp, if_neg hp]
    rfl

/-- What the reported size leaves for commands is what they take, unless a TXParamSetupAns is due or the application
asks for a link check or the time. -/
theorem mtu_overhead (cfg : Cfg) (m : Mac) (ht : ¬ Due m.ctx .txParamSetup) :
    (mtuCommands cfg).foldl (fun n t => u8 (n + (if commandIsPending m.ctx t then MacCmd.sizeofCommandUp t else 0)))
      Frame.dataOverhead = 8 + (commandBytes cfg m.ctx none).length := by
  simp only [pending_size]
  unfold commandBytes answers mtuCommands
  simp only [List.flatMap_append, List.length_append]
  have h0 : Frame.dataOverhead = 8 := rfl
  have hf : ((if (Option.getD (none : Option DataOpts) {}).check = true then [UpCmd.linkCheckReq] else []).flatMap encodeUp).length = 0 := rfl
  have hg : ((if (Option.getD (none : Option DataOpts) {}).getTime = true then [UpCmd.deviceTimeReq] else []).flatMap encodeUp).length = 0 := rfl
  rw [hf, hg, flat_if _ 2 rfl, flat_if _ 2 rfl, flat_if _ 2 rfl, flat_if _ 1 rfl, flat_if _ 2 rfl, flat_if _ 3 rfl,
    flat_if _ 2 rfl, flat_if _ 2 rfl, flat_if _ 1 rfl, flat_if _ 1 rfl, flat_if _ 1 rfl, if_neg ht, h0]
  have b : ∀ (p : Prop) [Decidable p] (k : Nat), (if p then k else 0) ≤ k := by
    intro p _ k
    split <;> omega
  have b1 := b (Due m.ctx .linkADR) 2
  have b2 := b (Due m.ctx .dutyCycle) 1
  have b3 := b (Due m.ctx .rxParamSetup) 2
  have b4 := b (Due m.ctx .devStatus) 3
  have b5 := b (Due m.ctx .newChannel) 2
  have b6 := b (Due m.ctx .rxTimingSetup) 1
  have b7 := b (Due m.ctx .dlChannel) 2
  have b8 := b (Due m.ctx .rekey) 2
  have b9 := b (Due m.ctx .adrParamSetup) 1
  have b10 := b (Due m.ctx .rejoinParamSetup) 2
  cases hv : cfg.v11 with
  | true =>
    simp only [if_true, List.foldl_append, List.foldl_cons, List.foldl_nil, MacCmd.sizeofCommandUp, true_and, u8]
    omega
  | false =>
    simp only [Bool.false_eq_true, if_false, List.foldl_append, List.foldl_cons, List.foldl_nil, MacCmd.sizeofCommandUp,
      false_and, u8]
    omega

theorem sendData_outcome (cfg : Cfg) (e : Env) (m : Mac) (confirmed : Bool) (port : Nat) (data : Option Bytes) (len : Nat)
    (opts : Option DataOpts) (max : Nat) : (sendData cfg e m confirmed port data len opts max).2 =
      if (answerBytes cfg m (dataOptions opts)).length > 15 ∨
        len + 8 + (answerBytes cfg m (dataOptions opts)).length > max then .macPriority else .ok := by
  have h : (sendData cfg e m confirmed port data len opts max).2 =
    (placeMacData (dataHeader m confirmed port) confirmed ((uplinkAnswers cfg m (dataOptions opts)).1.mem.take
      (uplinkAnswers cfg m (dataOptions opts)).1.tell) data len max).2.2 := rfl
  rw [h, (uplinkAnswers_bytes cfg m (dataOptions opts)).1]
  generalize answerBytes cfg m (dataOptions opts) = macs
  unfold placeMacData
  have h0 : Frame.dataOverhead = 8 := rfl
  rw [h0]
  by_cases h1 : macs.length > 15
  · rw [if_pos h1, if_pos (Or.inl h1)]
  · rw [if_neg h1]
    by_cases h2 : len + 8 + macs.length > max
    · rw [if_pos h2, if_pos (Or.inr h2)]
    · rw [if_neg h2, if_neg (fun h => h.elim h1 h2)]

/-- **C42**: a payload (not empty) no longer than the reported size is neither refused for its size nor displaced by
MAC commands, and a longer one is one or the other: when everything else needed for sending is in order, it is sent
whole exactly if it is no longer than the size reported.  Partial: every channel in use allows the data rate
(`c42_channels`), no TXParamSetupAns is due, the application does not ask for a link check or the time
(`c42_requests`), and the commands due fit into FOpts (`c42_many_commands`). -/
theorem c42_mtu_partial {cfg : Cfg} {m : Mac} (hr : Reachable cfg m) (e : Env)
    (confirmed : Bool) (port : Nat) (payload : Option Bytes) (len : Nat) (opts : Option DataOpts)
    (hrate : ∀ ch f lo hi, ¬ Masked m.ctx ch → chan m.ctx ch = some (f, lo, hi) → lo ≤ m.ctx.rate ∧ m.ctx.rate ≤ hi)
    (ht : ¬ Due m.ctx .txParamSetup) (hopt : (opts.getD {}).check = false ∧ (opts.getD {}).getTime = false)
    (hcmd : (commandBytes cfg m.ctx opts).length ≤ 15) (hlen : 0 < len) :
    let st := (step cfg m e (.data confirmed port payload len opts)).2
    (len ≤ mtu cfg m → st ≠ .size ∧ st ≠ .macPriority) ∧
    (Sendable m port 0 → (st = .ok ↔ len ≤ mtu cfg m)) := by
  have hs := hr.sessionOk
  have hmtu : (m.ctx.region.convertRate m.ctx.rate).mtu = maxPayload m.ctx.region m.ctx.rate :=
    (convertRate_spec m.ctx.region m.ctx.rate (List.mem_append_left _ hs.rate)).2.2
  have hcb : commandBytes cfg m.ctx opts = commandBytes cfg m.ctx none := by
    unfold commandBytes
    rw [hopt.1, hopt.2]
    rfl
  have hab : answerBytes cfg m (dataOptions opts) = commandBytes cfg m.ctx opts := by cases opts <;> rfl
  have hval : m.ctx.joined = true → mtu cfg m = maxPayload m.ctx.region m.ctx.rate -
      (8 + (commandBytes cfg m.ctx opts).length) := by
    intro hj
    unfold mtu
    simp only []
    rw [mtuRate_same hs.words hrate, if_pos hj, mtu_overhead cfg m ht, hmtu, hcb]
    split <;> omega
  intro st
  have hst : st = (step cfg m e (.data confirmed port payload len opts)).2 := rfl
  have hout := send_outcome hr e confirmed port payload len opts
  simp only [] at hout
  rw [← hst] at hout
  rcases hout with ⟨hse, hok⟩ | ⟨href, _⟩
  · obtain ⟨freq, ch, rate, _, _, _, _, hsel, hl, hstep⟩ := accepted_send e confirmed port payload len opts hok
    rw [hstep, sendData_outcome] at hst
    have hab' : answerBytes cfg { m with tx := { m.tx with freq := freq, chIndex := ch, rate := rate, power := m.ctx.power } }
      (dataOptions opts) = commandBytes cfg m.ctx opts := hab
    rw [hab', hmtu] at hst
    clear hstep hsel hl
    clear_value st
    have hv := hval hse.1
    by_cases hfit : len + 8 + (commandBytes cfg m.ctx opts).length > maxPayload m.ctx.region m.ctx.rate
    · rw [if_pos (Or.inr hfit)] at hst
      rw [hst]
      exact ⟨fun h => by omega, fun _ => ⟨fun h => by simp at h, fun h => by omega⟩⟩
    · rw [if_neg (by omega)] at hst
      rw [hst]
      exact ⟨fun _ => by simp, fun _ => ⟨fun _ => by omega, fun _ => rfl⟩⟩
  · have hns := href.not_sendable
    refine ⟨fun h => ⟨fun hsz => ?_, hns.2.2⟩, fun h => ⟨fun h' => absurd h' hns.2.1, fun h' => ?_⟩⟩
    · rw [hsz] at href
      cases href with
      | size hj _ _ _ _ hlt =>
        have := hval hj
        omega
    · exfalso
      have := hval h.1
      obtain ⟨h1, h2, h3, h4, h5, h6, _⟩ := h
      exact hns.1 ⟨h1, h2, h3, h4, h5, h6, by omega⟩

/-! ## A concrete device, and where the reported size is wrong -/

/-- The demonstration device, LinkADRAns and DevStatusAns due. -/
def dueSession : Session :=
  { Demo.joined.ctx with pendingCmds := 1 <<< CmdType.linkADR.index ||| 1 <<< CmdType.devStatus.index }

/-- The demonstration device, all answers due. -/
def allDueSession : Session := { Demo.joined.ctx with pendingCmds := 0x1fe }

theorem withPending_ok (n : Nat) : SessionOk { Demo.joined.ctx with pendingCmds := n } := by
  have h := Demo.joined_reachable.sessionOk
  exact ⟨h.rate, h.power, h.words, h.up, h.appDown, h.nwkDown, h.devAddr, h.netID, h.joinNonce, h.devNonce, h.nbTrans,
    h.rx1DROffset, h.rx2DataRate, h.rx1Delay, h.adrAckLimit, h.adrAckDelay, h.fresh, h.magic, h.mask, h.txParamSetup⟩

/-- A request to send `n` bytes. -/
def sendBytes (n : Nat) : Call := .data false 1 (some (List.replicate n 7)) n none

/-- The hypotheses of `c42_mtu_partial` are met by that device: 46 bytes are reported, 46 are sent, 47 displaced. -/
example : Reachable Demo.cfg (Demo.restored Demo.cfg dueSession) ∧
    (∀ ch ∈ List.range 16, ∀ x, chan (Demo.restored Demo.cfg dueSession).ctx ch = some x → x.2 = (0, 5)) ∧
    ¬ Due (Demo.restored Demo.cfg dueSession).ctx .txParamSetup ∧ mtu Demo.cfg (Demo.restored Demo.cfg dueSession) = 46 ∧
    (step Demo.cfg (Demo.restored Demo.cfg dueSession) (Demo.at_ 30000) (sendBytes 46)).2 = .ok ∧
    (step Demo.cfg (Demo.restored Demo.cfg dueSession) (Demo.at_ 30000) (sendBytes 47)).2 = .macPriority :=
  ⟨Demo.restored_reachable _ (withPending_ok _), by decide +kernel, by decide +kernel, by decide +kernel,
    by decide +kernel, by decide +kernel⟩

/-- **C42 does not hold** where some channel in use does not allow the data rate: the size reported is that of the rate
of another channel.  A US915 device as it is after joining reports 242 bytes and refuses 12. -/
theorem c42_channels : Reachable Demo.cfg usJoined ∧ mtu Demo.cfg usJoined = 242 ∧
    (step Demo.cfg usJoined (Demo.at_ 30000) (sendBytes 12)).2 = .size :=
  ⟨usJoined_reachable, by decide +kernel, by decide +kernel⟩

/-- **C42 does not hold** where a TXParamSetupAns is due: its byte is not counted. -/
theorem c42_tx_param_setup : Reachable Demo.cfg (Demo.restored Demo.cfg allDueSession) ∧
    mtu Demo.cfg (Demo.restored Demo.cfg allDueSession) = 38 ∧
    (step Demo.cfg (Demo.restored Demo.cfg allDueSession) (Demo.at_ 30000) (sendBytes 38)).2 = .macPriority :=
  ⟨Demo.restored_reachable _ (withPending_ok _), by decide +kernel, by decide +kernel⟩

/-- **C42 does not hold** for requests of the application: their bytes are not counted. -/
theorem c42_requests : Reachable Demo.cfg Demo.joined ∧ mtu Demo.cfg Demo.joined = 51 ∧
    (step Demo.cfg Demo.joined (Demo.at_ 30000)
      (.data false 1 (some (List.replicate 51 7)) 51 (some { nbTrans := 0, check := true, getTime := false }))).2 =
      .macPriority :=
  ⟨Demo.joined_reachable, by decide +kernel, by decide +kernel⟩

/-- **C42 does not hold** where the commands due do not fit into FOpts: any payload is displaced. -/
theorem c42_many_commands :
    Reachable Demo.cfg11 (Demo.restored Demo.cfg11 { Demo.joined.ctx with pendingCmds := 0x27fe }) ∧
    mtu Demo.cfg11 (Demo.restored Demo.cfg11 { Demo.joined.ctx with pendingCmds := 0x27fe }) = 33 ∧
    (step Demo.cfg11 (Demo.restored Demo.cfg11 { Demo.joined.ctx with pendingCmds := 0x27fe }) (Demo.at_ 30000)
      (sendBytes 1)).2 = .macPriority :=
  ⟨Demo.restored_reachable _ (withPending_ok _), by decide +kernel, by decide +kernel⟩

/-- Even an empty payload, never longer than the size reported, can be displaced (on a slow US915 channel). -/
theorem c42_empty :
    Reachable Demo.cfg (run Demo.cfg (init Demo.cfg .us915 { session := some usBusy } (Demo.at_ 0)) Demo.boot) ∧
    (step Demo.cfg (run Demo.cfg (init Demo.cfg .us915 { session := some usBusy } (Demo.at_ 0)) Demo.boot)
      (Demo.at_ 30000) (.data false 1 none 0 none)).2 = .macPriority := by
  refine ⟨Demo.run_reach (.init _ _ _ ?_ ⟨rfl, rfl, rfl, rfl, by decide, by decide⟩) _ (by decide +kernel),
    by decide +kernel⟩
  intro s hs
  cases hs
  exact usBusy_ok

end LDL
