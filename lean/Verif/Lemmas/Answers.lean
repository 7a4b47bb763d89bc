import Verif.Props.UpCommands
import Verif.Spec.Answers
import Verif.Lemmas.Emits

/-!
# The MAC commands put into an uplink
-/

namespace LDL
open LDL.Stream

theorem testBit_one_shiftLeft (k i : Nat) : (1 <<< k).testBit i = decide (i = k) := by
  rw [Nat.one_shiftLeft, Nat.testBit_two_pow]
  by_cases h : k = i <;> simp [h, eq_comm]

theorem commandIsPending_iff (s : Session) (t : CmdType) : commandIsPending s t = true ↔ Spec.Due s t := by
  unfold commandIsPending Spec.Due
  rw [decide_eq_true_iff]
  constructor
  · intro h
    apply Decidable.byContradiction
    intro hc
    have : s.pendingCmds &&& 1 <<< t.index = 0 := by
      apply Nat.eq_of_testBit_eq
      intro i
      rw [Nat.testBit_and, testBit_one_shiftLeft, Nat.zero_testBit]
      by_cases hi : i = t.index
      · subst hi; simp at hc; simp [hc]
      · simp [hi]
    omega
  · intro h
    apply Nat.pos_of_ne_zero
    intro hc
    have := congrArg (fun n => n.testBit t.index) hc
    simp only [Nat.testBit_and, testBit_one_shiftLeft, h, Nat.zero_testBit] at this
    simp at this

theorem testBit_setPending (s : Session) (t : CmdType) (i : Nat) :
    (setPending s t).pendingCmds.testBit i = (s.pendingCmds.testBit i || decide (i = t.index)) := by
  unfold setPending
  simp only [Nat.testBit_or, testBit_one_shiftLeft]

theorem index_lt (t : CmdType) : t.index < 16 := by cases t <;> decide

theorem index_inj {t u : CmdType} (h : t.index = u.index) : t = u := by
  cases t <;> cases u <;> first | rfl | exact absurd h (by decide)

theorem testBit_clearPending (s : Session) (t : CmdType) (i : Nat) (hi : i < 16) :
    (clearPending s t).pendingCmds.testBit i = (s.pendingCmds.testBit i && !decide (i = t.index)) := by
  unfold clearPending
  simp only [Nat.testBit_and, Nat.testBit_xor, testBit_one_shiftLeft]
  have : (65535 : Nat).testBit i = true := by
    have : ∀ k : Fin 16, (65535 : Nat).testBit k.val = true := by decide
    exact this ⟨i, hi⟩
  rw [this]
  by_cases h : i = t.index <;> simp [h]

theorem due_clear (s : Session) (t u : CmdType) : Spec.Due (clearPending s t) u ↔ Spec.Due s u ∧ u ≠ t := by
  unfold Spec.Due
  rw [testBit_clearPending _ _ _ (index_lt u)]
  simp only [Bool.and_eq_true, Bool.not_eq_true', decide_eq_false_iff_not]
  exact and_congr_right fun _ => not_congr ⟨index_inj, congrArg _⟩

theorem due_set (s : Session) (t u : CmdType) : Spec.Due (setPending s t) u ↔ Spec.Due s u ∨ u = t := by
  unfold Spec.Due
  rw [testBit_setPending]
  simp only [Bool.or_eq_true, decide_eq_true_iff]
  exact or_congr_right ⟨index_inj, congrArg _⟩

/-- Where the serialisation of answers has got to: `cs` written, at most `n` bytes, the types in `cleared` no longer
due. -/
structure AnsInv (s0 : Session) (n : Nat) (cleared : List CmdType) (cs : List Spec.UpCmd) (p : Stream × Session) :
    Prop where
  writable : p.1.writable = true
  error : p.1.error = false
  size : p.1.size = 30
  pos : p.1.pos = (cs.flatMap Spec.encodeUp).length
  mem : p.1.mem = cs.flatMap Spec.encodeUp ++ List.replicate (30 - (cs.flatMap Spec.encodeUp).length) 0
  fit : (cs.flatMap Spec.encodeUp).length ≤ n
  session : ∃ pc, p.2 = { s0 with pendingCmds := pc }
  due : ∀ t, Spec.Due p.2 t ↔ Spec.Due s0 t ∧ t ∉ cleared

theorem AnsInv.start (s0 : Session) : AnsInv s0 0 [] [] (Stream.init (List.replicate 30 0) 30, s0) :=
  ⟨rfl, rfl, rfl, rfl, rfl, by decide, ⟨_, rfl⟩, by simp⟩

theorem AnsInv.put {s0 : Session} {n : Nat} {cl : List CmdType} {cs : List Spec.UpCmd} {p : Stream × Session}
    {v11 : Bool} (h : AnsInv s0 n cl cs p) (c : Spec.UpCmd) (ha : Spec.upAvailable v11 c)
    (hf : n + (Spec.encodeUp c).length ≤ 30) :
    AnsInv s0 (n + (Spec.encodeUp c).length) cl (cs ++ [c]) (putUp v11 p.1 c, p.2) := by
  have hfit := h.fit
  have hlen : p.1.mem.length = 30 := by rw [h.mem, List.length_append, List.length_replicate]; omega
  have := (c09_command_bytes v11 p.1 c ha h.writable h.error (by rw [h.pos, h.size]; omega)
    (by rw [h.size, hlen]) (by rw [h.size]; decide)).1 (by rw [h.pos, h.size]; omega)
  rw [this]
  refine ⟨h.writable, h.error, h.size, ?_, ?_, ?_, h.session, h.due⟩
  · simp only [h.pos, List.flatMap_append, List.length_append, List.flatMap_cons, List.flatMap_nil, List.append_nil]
  · simp only [h.mem, h.pos, List.flatMap_append, List.flatMap_cons, List.flatMap_nil, List.append_nil,
      List.length_append]
    rw [List.take_left, ← List.drop_drop, List.drop_left, List.drop_replicate]
    congr 2
    omega
  · simp only [List.flatMap_append, List.flatMap_cons, List.flatMap_nil, List.append_nil, List.length_append]
    omega

theorem AnsInv.more {s0 : Session} {n k : Nat} {cl : List CmdType} {cs : List Spec.UpCmd} {p : Stream × Session}
    (h : AnsInv s0 n cl cs p) (hk : n ≤ k) : AnsInv s0 k cl cs p :=
  ⟨h.writable, h.error, h.size, h.pos, h.mem, Nat.le_trans h.fit hk, h.session, h.due⟩

theorem AnsInv.answer {s0 : Session} {n : Nat} {cl : List CmdType} {cs : List Spec.UpCmd} {p : Stream × Session}
    {v11 : Bool} (h : AnsInv s0 n cl cs p) (t : CmdType) (single : Bool) (put : Session → Stream → Stream)
    (c : Spec.UpCmd) (hp : ∀ pc s, put { s0 with pendingCmds := pc } s = putUp v11 s c)
    (ha : Spec.upAvailable v11 c) (ht : t ∉ cl) (k : Nat) (hk : (Spec.encodeUp c).length = k) (hf : n + k ≤ 30) :
    AnsInv s0 (n + k) (if single then t :: cl else cl) (cs ++ if Spec.Due s0 t then [c] else [])
      (LDL.answer t single put p) := by
  obtain ⟨pc, hs⟩ := h.session
  have hdue : Spec.Due p.2 t ↔ Spec.Due s0 t := by rw [h.due]; simp [ht]
  subst hk
  unfold LDL.answer
  by_cases hd : Spec.Due s0 t
  · rw [if_pos ((commandIsPending_iff _ _).2 (hdue.2 hd)), if_pos hd]
    have h1 := h.put c ha hf
    have e : put p.2 p.1 = putUp v11 p.1 c := by rw [hs]; exact hp pc p.1
    rw [e]
    cases single
    · exact h1
    · refine ⟨h1.writable, h1.error, h1.size, h1.pos, h1.mem, h1.fit, ?_, ?_⟩
      · rw [hs]; exact ⟨_, rfl⟩
      · intro u
        simp only [if_true]
        rw [due_clear, h.due, List.mem_cons, not_or, and_assoc, and_comm (a := u ∉ cl)]
  · rw [if_neg (fun hc => hd (hdue.1 ((commandIsPending_iff _ _).1 hc))), if_neg hd, List.append_nil]
    refine AnsInv.more ⟨h.writable, h.error, h.size, h.pos, h.mem, h.fit, h.session, ?_⟩ (Nat.le_add_right _ _)
    intro u
    rw [h.due]
    cases single
    · rfl
    · simp only [if_true, List.mem_cons, not_or]
      refine ⟨fun hu => ⟨hu.1, fun e => hd (e ▸ hu.1), hu.2⟩, fun hu => ⟨hu.1, hu.2.2⟩⟩

/-- The answers sent once. -/
def singles (v11 : Bool) : List CmdType :=
  if v11 then [.dutyCycle, .txParamSetup, .adrParamSetup, .rejoinParamSetup, .newChannel, .devStatus, .linkADR]
  else [.dutyCycle, .txParamSetup, .newChannel, .devStatus, .linkADR]

/-- **The bytes written are those of the answers due, and the single-shot ones are no longer due.** -/
theorem putAnswers_inv (cfg : Cfg) (s : Session) (o : DataOpts) :
    AnsInv s 21 (singles cfg.v11) (Spec.answers cfg.v11 s o.check o.getTime) (putAnswers cfg s o) := by
  have hreq : ∀ {n : Nat} {cl : List CmdType} {cs : List Spec.UpCmd} {p : Stream × Session} {v : Bool},
      AnsInv s n cl cs p → n ≤ 19 → AnsInv s (n + 2) cl
        (cs ++ (if o.check then [.linkCheckReq] else []) ++ (if o.getTime then [.deviceTimeReq] else []))
        (let p := if o.check then (MacCmd.putLinkCheckReq v p.1, p.2) else p
         if o.getTime then (MacCmd.putDeviceTimeReq v p.1, p.2) else p) := by
    intro n cl cs p v h hn
    cases o.check <;> cases o.getTime <;> simp only [if_true, if_false, List.append_nil, Bool.false_eq_true]
    · exact h.more (by omega)
    · exact (h.put (v11 := v) .deviceTimeReq trivial (by show n + 1 ≤ 30; omega)).more (by show n + 1 ≤ _; omega)
    · exact (h.put (v11 := v) .linkCheckReq trivial (by show n + 1 ≤ 30; omega)).more (by show n + 1 ≤ _; omega)
    · exact ((h.put (v11 := v) .linkCheckReq trivial (by show n + 1 ≤ 30; omega)).put (v11 := v) .deviceTimeReq trivial
        (by show n + 1 + 1 ≤ 30; omega))
  unfold putAnswers Spec.answers singles
  cases hv : cfg.v11
  · simp only [Bool.false_eq_true, if_false, false_and, List.nil_append, List.append_nil]
    have h := ((((((((AnsInv.start s).answer (v11 := false) .rxParamSetup false
      (fun c s => MacCmd.putRXParamSetupAns false s c.rxParamSetupAns) (.rxParamSetupAns s.rxParamSetupAns.rx1DROffsetOK s.rxParamSetupAns.rx2DataRateOK s.rxParamSetupAns.channelOK)
        (fun _ _ => rfl) trivial (by decide) 2 rfl (by decide)).answer (v11 := false) .dlChannel false
      (fun c s => MacCmd.putDLChannelAns false s c.dlChannelAns) (.dlChannelAns s.dlChannelAns.uplinkFreqOK s.dlChannelAns.channelFreqOK)
        (fun _ _ => rfl) trivial (by decide) 2 rfl (by decide)).answer (v11 := false) .rxTimingSetup false
      (fun _ s => MacCmd.putRXTimingSetupAns false s) .rxTimingSetupAns
        (fun _ _ => rfl) trivial (by decide) 1 rfl (by decide)).answer (v11 := false) .linkADR true
      (fun c s => MacCmd.putLinkADRAns false s c.linkADRAns) (.linkADRAns s.linkADRAns.powerOK s.linkADRAns.dataRateOK s.linkADRAns.channelMaskOK)
        (fun _ _ => rfl) trivial (by decide) 2 rfl (by decide)).answer (v11 := false) .devStatus true
      (fun c s => MacCmd.putDevStatusAns false s c.devStatusAns) (.devStatusAns s.devStatusAns.battery s.devStatusAns.margin)
        (fun _ _ => rfl) trivial (by decide) 3 rfl (by decide)).answer (v11 := false) .newChannel true
      (fun c s => MacCmd.putNewChannelAns false s c.newChannelAns) (.newChannelAns s.newChannelAns.dataRateRangeOK s.newChannelAns.channelFreqOK)
        (fun _ _ => rfl) trivial (by decide) 2 rfl (by decide)).answer (v11 := false) .txParamSetup true
      (fun _ s => MacCmd.putTXParamSetupAns false s) .txParamSetupAns
        (fun _ _ => rfl) trivial (by decide) 1 rfl (by decide)).answer (v11 := false) .dutyCycle true
      (fun _ s => MacCmd.putDutyCycleAns false s) .dutyCycleAns
        (fun _ _ => rfl) trivial (by decide) 1 rfl (by decide)
    exact (hreq (v := false) h (by decide)).more (by decide)
  · simp only [if_true, true_and]
    have h := (((((((((((AnsInv.start s).answer (v11 := true) .rekey false
      (fun c s => MacCmd.putRekeyInd true s c.version) (.rekeyInd s.version)
        (fun _ _ => rfl) rfl (by decide) 2 rfl (by decide)).answer (v11 := true) .rxParamSetup false
      (fun c s => MacCmd.putRXParamSetupAns true s c.rxParamSetupAns) (.rxParamSetupAns s.rxParamSetupAns.rx1DROffsetOK s.rxParamSetupAns.rx2DataRateOK s.rxParamSetupAns.channelOK)
        (fun _ _ => rfl) trivial (by decide) 2 rfl (by decide)).answer (v11 := true) .dlChannel false
      (fun c s => MacCmd.putDLChannelAns true s c.dlChannelAns) (.dlChannelAns s.dlChannelAns.uplinkFreqOK s.dlChannelAns.channelFreqOK)
        (fun _ _ => rfl) trivial (by decide) 2 rfl (by decide)).answer (v11 := true) .rxTimingSetup false
      (fun _ s => MacCmd.putRXTimingSetupAns true s) .rxTimingSetupAns
        (fun _ _ => rfl) trivial (by decide) 1 rfl (by decide)).answer (v11 := true) .linkADR true
      (fun c s => MacCmd.putLinkADRAns true s c.linkADRAns) (.linkADRAns s.linkADRAns.powerOK s.linkADRAns.dataRateOK s.linkADRAns.channelMaskOK)
        (fun _ _ => rfl) trivial (by decide) 2 rfl (by decide)).answer (v11 := true) .devStatus true
      (fun c s => MacCmd.putDevStatusAns true s c.devStatusAns) (.devStatusAns s.devStatusAns.battery s.devStatusAns.margin)
        (fun _ _ => rfl) trivial (by decide) 3 rfl (by decide)).answer (v11 := true) .newChannel true
      (fun c s => MacCmd.putNewChannelAns true s c.newChannelAns) (.newChannelAns s.newChannelAns.dataRateRangeOK s.newChannelAns.channelFreqOK)
        (fun _ _ => rfl) trivial (by decide) 2 rfl (by decide)).answer (v11 := true) .rejoinParamSetup true
      (fun c s => MacCmd.putRejoinParamSetupAns true s c.rejoinTimeOK) (.rejoinParamSetupAns s.rejoinTimeOK)
        (fun _ _ => rfl) rfl (by decide) 2 rfl (by decide)).answer (v11 := true) .adrParamSetup true
      (fun _ s => MacCmd.putADRParamSetupAns true s) .adrParamSetupAns
        (fun _ _ => rfl) rfl (by decide) 1 rfl (by decide)).answer (v11 := true) .txParamSetup true
      (fun _ s => MacCmd.putTXParamSetupAns true s) .txParamSetupAns
        (fun _ _ => rfl) trivial (by decide) 1 rfl (by decide)).answer (v11 := true) .dutyCycle true
      (fun _ s => MacCmd.putDutyCycleAns true s) .dutyCycleAns
        (fun _ _ => rfl) trivial (by decide) 1 rfl (by decide)
    exact (hreq (v := true) h (by decide)).more (by decide)

end LDL
