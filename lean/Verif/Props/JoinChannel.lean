import Verif.Props.Transmit
import Verif.Lemmas.Live
import Verif.Props.JoinBackoff

/-!
# The channels of join requests: C56
-/

namespace LDL
open Spec

/-! ## Off-time counters are 32 bit values -/

/-- No off-time counter is above the largest 32 bit number. -/
def BandOk (m : Mac) : Prop := ∀ i, m.band i ≤ UINT32_MAX

theorem addOffTime_ok {band : Nat → Nat} (h : ∀ i, band i ≤ UINT32_MAX) (b off : Nat) (i : Nat) :
    addOffTime band b off i ≤ UINT32_MAX := by
  have hM : UINT32_MAX = 4294967295 := rfl
  unfold addOffTime
  split
  all_goals
    unfold upd
    by_cases hi : i = b
    · rw [if_pos hi]
      first
        | done
        | exact Nat.le_refl _
        | (have : u32 (band b + off) < 4294967296 := Nat.mod_lt _ (by decide); omega)
    · rw [if_neg hi]; exact h i

theorem charged_ok {m : Mac} (h : BandOk m) (i : Nat) : charged m i ≤ UINT32_MAX := by
  rw [charged_eq]
  have h1 : ∀ i, chargeBand m.ctx.region m.tx.freq m.tx.airTime m.band i ≤ UINT32_MAX := by
    intro i
    unfold chargeBand
    cases m.ctx.region.getBand m.tx.freq with
    | some b => exact addOffTime_ok h _ _ i
    | none => exact h i
  unfold chargeAll
  split
  · exact addOffTime_ok h1 _ _ i
  · exact h1 i

theorem ticked_le (cfg : Cfg) (e : Env) (m : Mac) (i : Nat) : (ticked cfg e m).band i ≤ m.band i := by
  have hc : ∀ t, countDown m.band t i ≤ m.band i := by
    intro t
    unfold countDown updateDownCounter
    split
    · split
      · split
        · exact Nat.zero_le _
        · exact Nat.sub_le _ _
      · exact Nat.le_refl _
    · exact Nat.le_refl _
  unfold ticked processBands
  split
  · exact Nat.le_refl _
  · dsimp only
    split <;> exact hc _

theorem BandOk.step {cfg : Cfg} {m : Mac} (h : BandOk m) (e : Env) (c : Call) : BandOk (LDL.step cfg m e c).1 := by
  intro i
  have hupd : ∀ band : Nat → Nat, (∀ i, band i ≤ UINT32_MAX) → upd band GLOBAL 0 i ≤ UINT32_MAX := by
    intro band hb
    unfold upd
    split
    · exact Nat.zero_le _
    · exact hb i
  by_cases hc : c = .process
  · subst hc
    show (process cfg e m).band i ≤ _
    have ht : BandOk (ticked cfg e m) := fun i => Nat.le_trans (ticked_le cfg e m i) (h i)
    rcases (process_clock cfg e m).1 with ⟨_, hcl⟩ | ⟨_, hcl⟩ | ⟨_, _, hcl⟩ <;>
      simp only [Mac.clock, Prod.mk.injEq] at hcl <;> rw [hcl.2.2.2]
    · exact charged_ok ht i
    · exact ht i
    · exact hupd _ ht
  · have ha := step_api cfg e m c hc
    rcases ha.clock.2.2.2 with ⟨_, h1⟩ | ⟨_, _, _, _, h1⟩ | ⟨_, _, h1⟩ | ⟨_, _, _, h1⟩ <;> rw [h1]
    · exact h i
    · exact h i
    · exact hupd _ h
    · exact hupd _ h

theorem Spec.Reachable.bandOk {cfg : Cfg} {m : Mac} (h : Reachable cfg m) : BandOk m := by
  induction h with
  | init region arg e _ _ =>
    obtain ⟨c, k, h, _⟩ := init_fields cfg region arg e
    intro i
    rw [h]
    show upd (fun _ => 0) GLOBAL (msToTime 0) i ≤ _
    unfold upd
    split <;> exact Nat.zero_le _
  | step e c _ _ ih => exact ih.step e c

/-! ## Selecting a channel that opens first -/

theorem minFold_le (f : Nat → Nat) (l : List Nat) (x : Nat) :
    l.foldl (fun min i => if min > f i then f i else min) x ≤ x ∧
    (l.foldl (fun min i => if min > f i then f i else min) x = x ∨
      ∃ i ∈ l, l.foldl (fun min i => if min > f i then f i else min) x = f i) := by
  induction l generalizing x with
  | nil => exact ⟨Nat.le_refl _, Or.inl rfl⟩
  | cons a l ih =>
    rw [List.foldl_cons]
    have hle : (if x > f a then f a else x) ≤ x := by split <;> omega
    have hor : (if x > f a then f a else x) = x ∨ (if x > f a then f a else x) = f a := by split <;> simp
    obtain ⟨h1, h2⟩ := ih (if x > f a then f a else x)
    refine ⟨Nat.le_trans h1 hle, ?_⟩
    rcases h2 with h2 | ⟨i, hi, h2⟩
    · rw [h2]
      rcases hor with h | h
      · exact Or.inl h
      · exact Or.inr ⟨a, by simp, h⟩
    · exact Or.inr ⟨i, by simp [hi], h2⟩

/-- A channel that can be used sooner or later: defined, not masked, in a band of the region. -/
def Usable (s : Session) (ch : Nat) : Prop :=
  ¬ Masked s ch ∧ ∃ f lo hi b, chan s ch = some (f, lo, hi) ∧ band s.region f = some b

theorem open_of_usable {m : Mac} (hw : ChanWords m.ctx) (hb : BandOk m) {ch : Nat} (h : Usable m.ctx ch) :
    ∃ ch, Open m (timeUntilNextChannel m) ch := by
  have hM : UINT32_MAX = 4294967295 := rfl
  obtain ⟨hm, f, lo, hi, b, h1, h2⟩ := h
  have hmin := minFold_le (timeUntilAvailable m) (List.range m.ctx.region.numChannels) UINT32_MAX
  change timeUntilNextChannel m ≤ _ ∧ (timeUntilNextChannel m = _ ∨ ∃ i ∈ _, timeUntilNextChannel m = _) at hmin
  have hbb := hb b
  by_cases hlt : timeUntilNextChannel m < UINT32_MAX
  · rcases hmin.2 with h3 | ⟨i, hi', h3⟩
    · omega
    · rw [List.mem_range] at hi'
      rw [h3] at hlt ⊢
      unfold timeUntilAvailable at hlt ⊢
      cases hu : usableBand m.ctx i with
      | none => rw [hu] at hlt; simp only [] at hlt; omega
      | some b' =>
        simp only []
        obtain ⟨g1, f', lo', hi2, g2, g3⟩ := (usableBand_spec m.ctx i hw hi' b').1 hu
        refine ⟨i, g1, f', lo', hi2, b', g2, g3, ?_⟩
        split <;> omega
  · exact ⟨ch, hm, f, lo, hi, b, h1, h2, by omega⟩

/-! ## C56 -/

/-- A radio setting is in order for a join request of a device with session `s`: it is that of a channel of the plan,
one that is not masked where channels can be masked individually before joining, and at a data rate within the range
of the channel, if that range makes sense. -/
def JoinLegal (s : Session) (t : TxSetting) : Prop :=
  ∃ ch lo hi, chan s ch = some (t.freq, lo, hi) ∧
    (s.region = .eu868 ∨ s.region = .eu433 → ¬ Masked s ch) ∧
    (RangeOk s.region lo hi → ∃ dr, lo ≤ dr ∧ dr ≤ hi ∧
      t.sf = sfOf s.region dr ∧ bwToNumber t.bw = bwOf s.region dr)

/-- The same for a channel that is selected. -/
def TxLegal (s : Session) (t : Tx) : Prop :=
  ∃ lo hi, chan s t.chIndex = some (t.freq, lo, hi) ∧ (s.region = .eu868 ∨ s.region = .eu433 → ¬ Masked s t.chIndex) ∧
    (RangeOk s.region lo hi → lo ≤ t.rate ∧ t.rate ≤ hi ∧ t.rate ∈ upRates s.region)

theorem TxLegal.congr {s : Session} {t t' : Tx} (h : TxLegal s t) (h1 : t'.freq = t.freq) (h2 : t'.chIndex = t.chIndex)
    (h3 : t'.rate = t.rate) : TxLegal s t' := by
  unfold TxLegal
  rw [h1, h2, h3]
  exact h

theorem TxLegal.setting {s : Session} {m : Mac} (h : TxLegal s m.tx) (hr : m.ctx.region = s.region) :
    JoinLegal s (txSetting m) := by
  obtain ⟨lo, hi, h1, h2, h3⟩ := h
  refine ⟨m.tx.chIndex, lo, hi, h1, h2, fun hok => ?_⟩
  obtain ⟨r1, r2, r3⟩ := h3 hok
  obtain ⟨c1, c2, _⟩ := convertRate_spec s.region m.tx.rate (List.mem_append_left _ r3)
  refine ⟨m.tx.rate, r1, r2, ?_, ?_⟩
  · show (m.ctx.region.convertRate m.tx.rate).sf = _
    rw [hr, c1]
  · show bwToNumber (m.ctx.region.convertRate m.tx.rate).bw = _
    rw [hr, c2]

theorem joinIndex_lt (r : Region) (hr : r = .us915 ∨ r = .au915) (t v : Nat) : r.getJoinIndex t v < 72 := by
  have hu : ∀ x : Nat, x < 72 → u8 x < 72 := by
    intro x hx
    unfold u8
    omega
  have h1 : ∀ x : Nat, x % 8 < 8 := fun x => Nat.mod_lt _ (by omega)
  have a := h1 (t >>> 1)
  have b := h1 v
  rcases hr with rfl | rfl <;> simp only [Region.getJoinIndex] <;> split <;> apply hu <;> omega

theorem dwell_rate {r : Region} {d : Nat} (hd : d ∈ upRates r) (b : Bool) : r.applyUplinkDwell b d ∈ upRates r := by
  cases r <;> simp only [Region.applyUplinkDwell] <;> try exact hd
  split
  · decide
  · exact hd

/-- What is selected for a join request: a legal channel, or what was selected before if no channel is usable. -/
theorem selectJoin_legal {cfg : Cfg} {m : Mac} (hw : ChanWords m.ctx) (hb : BandOk m) (e : Env) :
    TxLegal m.ctx (selectJoinChannelAndRate cfg e m) ∨
    selectJoinChannelAndRate cfg e m = m.tx ∧ (m.ctx.region = .eu868 ∨ m.ctx.region = .eu433) ∧ ¬ ∃ ch, Usable m.ctx ch := by
  have hd : m.ctx.region.applyUplinkDwell (uplinkDwell m.ctx.txParamSetup) (m.ctx.region.getJoinRate cfg.minRate m.trials) ∈
      upRates m.ctx.region := dwell_rate (joinRate_ok _ _ _) _
  unfold selectJoinChannelAndRate
  simp only []
  generalize m.ctx.region.applyUplinkDwell (uplinkDwell m.ctx.txParamSetup) (m.ctx.region.getJoinRate cfg.minRate m.trials) = d at *
  by_cases hdyn : m.ctx.region.isDynamic = true
  · rw [if_pos hdyn]
    rcases hs : selectChannel m (e.draw 1) d (timeUntilNextChannel m) with _ | ⟨f, ch, r⟩
    · refine Or.inr ⟨rfl, ?_, ?_⟩
      · revert hdyn
        cases m.ctx.region <;> simp [Region.isDynamic]
      · rintro ⟨ch, h⟩
        have := (selectChannel_isSome m hw (e.draw 1) d (timeUntilNextChannel m)).2 (open_of_usable hw hb h)
        rw [hs] at this
        cases this
    · left
      obtain ⟨_, h2, lo, hi, h3, h4⟩ := selectChannel_some _ hw _ _ _ _ _ _ hs
      refine ⟨lo, hi, h3, fun _ => h2.1, fun hok => ?_⟩
      show lo ≤ r ∧ r ≤ hi ∧ r ∈ _
      rw [h4]
      exact requiredRate_range hd hok
  · rw [if_neg hdyn]
    left
    have hf : m.ctx.region = .us915 ∨ m.ctx.region = .au915 := by
      revert hdyn
      cases m.ctx.region <;> simp [Region.isDynamic]
    have hlt := joinIndex_lt m.ctx.region hf m.trials (e.draw 1)
    generalize m.ctx.region.getJoinIndex m.trials (e.draw 1) = ch at *
    have hg : getChannel m.ctx ch = m.ctx.region.getChannel ch := by
      unfold getChannel
      rw [if_neg hdyn]
    have hdef : ∃ f lo hi, chan m.ctx ch = some (f, lo, hi) := by
      unfold chan
      rcases hf with h | h <;> rw [h] <;> simp only [] <;> split <;> simp
    obtain ⟨f, lo, hi, hch⟩ := hdef
    obtain ⟨c, g1, _, g3, g4, g5⟩ := (getChannel_spec m.ctx ch (hw ch) f lo hi).2 hch
    rw [← hg, g1]
    simp only []
    refine ⟨lo, hi, ?_, ?_, fun hok => ?_⟩
    · show chan m.ctx ch = some (c.freq, lo, hi)
      rw [g3]; exact hch
    · intro h
      rcases hf with h' | h' <;> rw [h'] at h <;> simp at h
    · show lo ≤ requiredRate d c.minRate c.maxRate ∧ _ ∧ _
      rw [g4, g5]
      exact requiredRate_range hd hok

theorem NewRequest.legal {cfg : Cfg} {e : Env} {m m' : Mac} (h : NewRequest cfg e m m') (hw : ChanWords m.ctx)
    (hb : BandOk m') : m'.ctx.region = m.ctx.region ∧ (TxLegal m.ctx m'.tx ∨
      (m'.tx.freq = m.tx.freq ∧ m'.tx.chIndex = m.tx.chIndex ∧ m'.tx.rate = m.tx.rate) ∧
        (m.ctx.region = .eu868 ∨ m.ctx.region = .eu433) ∧ ¬ ∃ ch, Usable m.ctx ch) := by
  obtain ⟨x, _, _, _, h4, _, _, h7, _, _, h10, h11, h12, h13, _, h15⟩ := h.made
  have hreg : (nextJoinRequest cfg e x).ctx.region = x.ctx.region := by
    obtain ⟨dn, _, _, _, h⟩ := nextJoinRequest_shape cfg e x
    rw [h]
  refine ⟨by rw [h13, hreg, h4], ?_⟩
  have key : ∃ (y : Mac) (dn : Nat), y.ctx = { x.ctx with devNonce := dn } ∧ y.band = x.band ∧ y.tx = x.tx ∧
      (nextJoinRequest cfg e x).tx = selectJoinChannelAndRate cfg e y := by
    unfold nextJoinRequest fillJoinBuffer
    dsimp only [Mac.emit]
    generalize (if cfg.version = .v103 then u16 (e.draw 0) else u16 x.devNonce) = dn
    generalize Ops.prepareJoinRequest cfg _ _ _ _ = p
    exact ⟨{ x with ctx := { x.ctx with devNonce := dn }, bufferLen := p.1, buffer := p.2 }, dn, rfl, rfl, rfl, rfl⟩
  obtain ⟨y, dn, y1, y2, y3, y4⟩ := key
  have hchan : ∀ ch, chan y.ctx ch = chan m.ctx ch := by rw [y1, h4]; exact fun _ => rfl
  have hmask : ∀ ch, Masked y.ctx ch ↔ Masked m.ctx ch := by rw [y1, h4]; exact fun _ => Iff.rfl
  have hr : y.ctx.region = m.ctx.region := by rw [y1, h4]
  have hwy : ChanWords y.ctx := by rw [y1, h4]; exact hw
  have hby : BandOk y := by unfold BandOk; rw [y2, h7]; exact hb
  rcases selectJoin_legal (cfg := cfg) hwy hby e with hl | ⟨hl, hl2, hl3⟩
  · left
    rw [← y4] at hl
    obtain ⟨lo, hi, l1, l2, l3⟩ := hl
    refine TxLegal.congr (t := (nextJoinRequest cfg e x).tx) ⟨lo, hi, ?_, ?_, ?_⟩ h10 h11 h12
    · rw [← hchan]; exact l1
    · rw [← hr, ← hmask]; exact l2
    · rw [← hr]; exact l3
  · right
    rw [← y4, y3, h15] at hl
    refine ⟨⟨by rw [h10, hl], by rw [h11, hl], by rw [h12, hl]⟩, hr ▸ hl2, ?_⟩
    rintro ⟨ch, u1, f, lo, hi, b, u2, u3⟩
    exact hl3 ⟨ch, (hmask ch).not.2 u1, f, lo, hi, b, (hchan ch).trans u2, hr ▸ u3⟩

theorem joining_legal {cfg : Cfg} (calls : List (Env × Call)) (hc : ∀ x ∈ calls, x.2.WF) {m : Mac} (hr : Reachable cfg m)
    (ho : m.op = .joining) {w : Session} (hw : TxLegal w m.tx) (hreg : m.ctx.region = w.region)
    (s : TxSetting) (frame : Bytes) (hs : (s, frame) ∈ sentBy cfg m calls) :
    JoinLegal w s ∨ ∃ k ≤ calls.length, JoinLegal (run cfg m (calls.take k)).ctx s := by
  induction calls generalizing m w with
  | nil => cases hs
  | cons x rest ih =>
    obtain ⟨e, c⟩ := x
    have hcw : c.WF := hc (e, c) (by simp)
    have hr' : Reachable cfg (step cfg m e c).1 := .step e c hr hcw
    obtain ⟨o, hout, hstep, _⟩ := step_does cfg e m c hr.reach.opOk
    have hrun : ∀ k, run cfg m (((e, c) :: rest).take (k + 1)) = run cfg (step cfg m e c).1 (rest.take k) := fun _ => rfl
    unfold sentBy at hs
    simp only [] at hs
    rw [hout, List.drop_left] at hs
    have ht : transmitted o = transmissions o := rfl
    rw [ht] at hs
    have hih := fun (w : Session) => ih (fun x hx => hc x (by simp [hx])) hr' (w := w)
    generalize (step cfg m e c).1 = m' at *
    -- from the calls that follow
    have later : ∀ w' : Session, m'.op = .joining → TxLegal w' m'.tx → m'.ctx.region = w'.region →
        (s, frame) ∈ (if m'.op = .none then [] else sentBy cfg m' rest) →
        JoinLegal w' s ∨ ∃ k ≤ rest.length + 1, JoinLegal (run cfg m (((e, c) :: rest).take k)).ctx s := by
      intro w' g1 g2 g3 g4
      rw [if_neg (by rw [g1]; simp)] at g4
      rcases hih w' g1 g2 g3 g4 with g | ⟨k, hk, g⟩
      · exact Or.inl g
      · exact Or.inr ⟨k + 1, by omega, by rw [hrun]; exact g⟩
    generalize transmissions o = tr at *
    generalize nonceReports o = nr at *
    rw [List.length_cons]
    cases hstep with
    | idle ho1 => rw [ho] at ho1; simp at ho1
    | keep _ hk => exact later w (hk.op.trans ho) (hw.congr hk.freq hk.chIndex hk.rate) (hk.region.trans hreg) hs
    | ended _ ho' =>
      rw [if_pos ho'] at hs
      simp at hs
    | sent _ _ _ _ hk =>
      rw [List.cons_append, List.nil_append, List.mem_cons] at hs
      rcases hs with hs | hs
      · left
        simp only [Prod.mk.injEq] at hs
        rw [hs.1]
        exact hw.setting hreg
      · exact later w (hk.op.trans ho) (hw.congr hk.freq hk.chIndex hk.rate) (hk.region.trans hreg) hs
    | repeated ho1 => rw [ho] at ho1; simp at ho1
    | request _ _ _ hn =>
      obtain ⟨n1, n2⟩ := hn.legal hr.sessionOk.words hr'.bandOk
      rcases n2 with n2 | ⟨⟨n2, n3, n4⟩, _⟩
      · rcases later m.ctx hn.op n2 n1 hs with g | g
        · exact Or.inr ⟨0, by omega, g⟩
        · exact Or.inr g
      · exact later w hn.op (hw.congr n2 n3 n4) (n1.trans hreg) hs
    | join ho1 => rw [ho] at ho1; cases ho1
    | send ho1 => rw [ho] at ho1; cases ho1

theorem otaa_joining {cfg : Cfg} (e : Env) (m : Mac) (h : (step cfg m e .otaa).2 = .ok) :
    (step cfg m e .otaa).1.op = .joining := by
  have ha := step_api cfg e m .otaa (by simp)
  generalize (step cfg m e .otaa).1 = m' at *
  generalize (step cfg m e .otaa).2 = st at *
  cases ha with
  | refused _ _ h' => exact absurd h h'.1
  | otaa => rfl

/-- **C56, partial**: whatever is called after a join was started, every join request is transmitted on a channel of the
plan, not masked where the plan can be edited, and at a data rate within its range, as the plan was before one of the
calls since (the one in which the request was made).  In the regions where channels can be edited some channel must
be usable when the join is started; `c56_masked` shows what happens otherwise.  The range of a channel must make sense,
as in C30. -/
theorem c56_join_channel_partial {cfg : Cfg} {m : Mac} (hr : Reachable cfg m) (e : Env)
    (ha : (step cfg m e .otaa).2 = .ok)
    (hu : m.ctx.region = .eu868 ∨ m.ctx.region = .eu433 → ∃ ch, Usable m.ctx ch)
    (calls : List (Env × Call)) (hc : ∀ x ∈ calls, x.2.WF) (s : TxSetting) (frame : Bytes)
    (hx : (s, frame) ∈ sentBy cfg (step cfg m e .otaa).1 calls) :
    ∃ k ≤ calls.length + 1, JoinLegal (run cfg m (((e, .otaa) :: calls).take k)).ctx s := by
  have hr' : Reachable cfg (step cfg m e .otaa).1 := .step e .otaa hr trivial
  obtain ⟨o, hout, hstep, _⟩ := step_does cfg e m .otaa hr.reach.opOk
  have hrun : ∀ k, run cfg m (((e, .otaa) :: calls).take (k + 1)) = run cfg (step cfg m e .otaa).1 (calls.take k) :=
    fun _ => rfl
  have hop : (step cfg m e .otaa).1.op = .joining := otaa_joining e m ha
  have hon : m.op = .none := (otaa_started e m ha).1
  generalize (step cfg m e .otaa).1 = m' at *
  generalize transmissions o = tr at *
  generalize nonceReports o = nr at *
  have hn : NewRequest cfg e m m' := by
    cases hstep with
    | join _ _ _ hn => exact hn
    | idle _ ho' => rw [hop] at ho'; simp at ho'
    | keep ho => rw [hon] at ho; simp [Op.isTx] at ho
    | ended ho => rw [hon] at ho; simp [Op.isTx] at ho
    | sent ho => rw [hon] at ho; simp [Op.isTx] at ho
    | repeated ho => rw [hon] at ho; simp at ho
    | request ho => rw [hon] at ho; cases ho
    | send _ _ _ _ _ _ hc => cases hc
  obtain ⟨n1, n2⟩ := hn.legal hr.sessionOk.words hr'.bandOk
  rcases n2 with n2 | ⟨_, n3, n4⟩
  · rcases joining_legal calls hc hr' hn.op n2 n1 s frame hx with g | ⟨k, hk, g⟩
    · exact ⟨0, by omega, g⟩
    · exact ⟨k + 1, by omega, by rw [hrun]; exact g⟩
  · exact absurd (hu n3) n4

/-- The channels of a fixed plan by trial: eight groups of eight 125 kHz channels in turn, each followed by a 500 kHz
channel. -/
theorem joinIndex_of (r : Region) (hr : r = .us915 ∨ r = .au915) (t v : Nat) :
    r.getJoinIndex t v = if t % 2 = 1 then 64 + t / 2 % 8 else t / 2 % 8 * 8 + v % 8 := by
  have h2 : t &&& 1 = t % 2 := Nat.and_one_is_mod t
  have h3 : t >>> 1 = t / 2 := Nat.shiftRight_one t
  rcases hr with rfl | rfl <;> simp only [Region.getJoinIndex, h2, h3, u8] <;> (repeat' split) <;> omega

/-- **C56**: in a fixed plan (US915, AU915) no channel is left out: among any sixteen trials in a row there is one whose
request goes out on a given channel, if the random source so decides; which it does for a 125 kHz channel with every
eighth value, and for a 500 kHz channel with every value. -/
theorem c56_every_channel (r : Region) (hr : r = .us915 ∨ r = .au915) (ch : Nat) (hch : ch < 72) (t0 : Nat)
    {cfg : Cfg} : ∃ t, t0 ≤ t ∧ t < t0 + 16 ∧ ∀ (m : Mac) (e : Env) (f lo hi : Nat), Reachable cfg m → m.ctx.region = r → m.trials = t →
      chan m.ctx ch = some (f, lo, hi) → (ch < 64 → e.draw 1 % 8 = ch % 8) →
      (selectJoinChannelAndRate cfg e m).freq = f ∧ (selectJoinChannelAndRate cfg e m).chIndex = ch := by
  obtain ⟨t, h1, h2, h3⟩ : ∃ t, t0 ≤ t ∧ t < t0 + 16 ∧ t % 16 = if ch < 64 then 2 * (ch / 8) else 2 * (ch - 64) + 1 := by
    refine ⟨t0 + ((if ch < 64 then 2 * (ch / 8) else 2 * (ch - 64) + 1) + 16 - t0 % 16) % 16, ?_, ?_, ?_⟩ <;> split <;> omega
  refine ⟨t, h1, h2, fun m e f lo hi hm hreg htr hc hd => ?_⟩
  have hidx : m.ctx.region.getJoinIndex m.trials (e.draw 1) = ch := by
    rw [hreg, htr, joinIndex_of r hr]
    generalize e.draw 1 = v at *
    by_cases hlt : ch < 64
    · have := hd hlt
      rw [if_pos hlt] at h3
      rw [if_neg (by omega)]
      omega
    · rw [if_neg hlt] at h3
      rw [if_pos (by omega)]
      omega
  have hdyn : ¬ m.ctx.region.isDynamic = true := by rw [hreg]; rcases hr with rfl | rfl <;> simp [Region.isDynamic]
  have hg : getChannel m.ctx ch = m.ctx.region.getChannel ch := by
    unfold getChannel
    rw [if_neg hdyn]
  unfold selectJoinChannelAndRate
  simp only []
  rw [if_neg hdyn, hidx, ← hg]
  obtain ⟨c, g1, _, g2, _⟩ := (getChannel_spec m.ctx ch (hm.sessionOk.words ch) f lo hi).2 hc
  rw [g1]
  exact ⟨g2, rfl⟩

/-- A booted device, after the application masked all its channels. -/
def allMasked : Mac := run Demo.cfg Demo.idle
  [(Demo.at_ 15000, .maskChannel 0), (Demo.at_ 15000, .maskChannel 1), (Demo.at_ 15000, .maskChannel 2)]

/-- The condition of `c56_join_channel_partial` is needed: with all channels masked a join is started all the same, and
the request is transmitted with frequency zero, which belongs to no channel. -/
theorem c56_masked : Reachable Demo.cfg allMasked ∧ (step Demo.cfg allMasked (Demo.at_ 20000) .otaa).2 = .ok ∧
    ∃ s frame, sentBy Demo.cfg (step Demo.cfg allMasked (Demo.at_ 20000) .otaa).1 (Demo.processAt [20000, 30000, 60000]) =
      [(s, frame)] ∧ s.freq = 0 ∧
    ∀ ch, (chan allMasked.ctx ch).map (·.1) ≠ some s.freq := by
  refine ⟨Demo.run_reach Demo.idle_reachable _ (by decide +kernel), by decide +kernel,
    ⟨0, .b125, 12, 1600⟩, [0, 0, 0, 0, 0, 0, 0, 0, 0, 0, 0, 0, 0, 0, 0, 0, 0, 0, 0, 0, 0, 0, 128], by decide +kernel, rfl, ?_⟩
  intro ch
  unfold chan
  rw [show allMasked.ctx.region = .eu868 by decide +kernel]
  simp only []
  split
  · simp only [Option.map_some, ne_eq, Option.some.injEq]
    omega
  · simp

/-- The join of a device in order: a request on one of the three default channels, at data rate 5. -/
example : (∃ ch, Usable Demo.idle.ctx ch) ∧ (step Demo.cfg Demo.idle (Demo.at_ 20000) .otaa).2 = .ok ∧
    (sentBy Demo.cfg (step Demo.cfg Demo.idle (Demo.at_ 20000) .otaa).1 (Demo.processAt [20000, 30000, 60000])).map (·.1) =
      [⟨868100000, .b125, 7, 1600⟩] ∧
    chan Demo.idle.ctx 0 = some (868100000, 0, 5) ∧ ¬ Masked Demo.idle.ctx 0 := by
  refine ⟨⟨0, by decide +kernel, 868100000, 0, 5, 1, by decide +kernel, by decide +kernel⟩, by decide +kernel,
    by decide +kernel, by decide +kernel, by decide +kernel⟩

end LDL
