import Verif.Lemmas.Sent
import Verif.Lemmas.Channel
import Verif.Lemmas.Demo
import Verif.Props.Operations

/-!
# Transmissions: C30, C31, C43, C46, C59, C60
-/

namespace LDL
open Spec

/-- A send request was accepted: the frame, or MAC commands in its place, will be sent. -/
def Accepted (st : Status) : Prop := st = .ok ∨ st = .macPriority

instance (st : Status) : Decidable (Accepted st) := inferInstanceAs (Decidable (_ ∨ _))

/-! ## C46 -/

/-- The number of times a frame may be sent: as asked with the request (four bits), else as set by the network, else
once. -/
def repetitions (opts : Option DataOpts) (s : Session) : Nat :=
  let k := match opts with
    | some o => o.nbTrans % 16
    | none => 0
  if k ≠ 0 then k else if s.nbTrans ≠ 0 then s.nbTrans else 1

theorem repetitions_lt (opts : Option DataOpts) {s : Session} (h : SessionOk s) :
    1 ≤ repetitions opts s ∧ repetitions opts s ≤ 15 := by
  have := h.nbTrans
  unfold repetitions
  cases opts <;> grind

theorem dataOptions_nbTrans (opts : Option DataOpts) :
    (dataOptions opts).nbTrans = (match opts with | some o => o.nbTrans % 16 | none => 0) := by
  have h2 : ∀ x : Nat, x &&& 0xf = x % 16 := fun x => Nat.and_two_pow_sub_one_eq_mod x 4
  cases opts with
  | none => rfl
  | some o => exact h2 _

/-- The state after an accepted send, as far as repetitions matter. -/
theorem accepted_counts {cfg : Cfg} {m : Mac} (hr : Reachable cfg m) (e : Env)
    (confirmed : Bool) (port : Nat) (payload : Option Bytes) (len : Nat) (opts : Option DataOpts)
    (ha : Accepted (step cfg m e (.data confirmed port payload len opts)).2)
    (m' : Mac) (hm' : m' = (step cfg m e (.data confirmed port payload len opts)).1) :
    (m'.op = .dataUnconfirmed ∨ m'.op = .dataConfirmed) ∧ m'.trials = 0 ∧ nbTransOf m' = repetitions opts m.ctx := by
  obtain ⟨freq, ch, rate, _, _, _, _, _, _, hstep⟩ := accepted_send e confirmed port payload len opts ha
  rw [hstep] at hm'
  obtain ⟨x, hx, a1, a2, a3, a4, a5, a6, a7, _⟩ := sendData_fields cfg e _ confirmed port payload len opts _ m' hm'
  refine ⟨?_, a7, ?_⟩
  · rw [a5, hx]; simp only []; split
    · exact Or.inr rfl
    · exact Or.inl rfl
  · obtain ⟨pc, hpc⟩ := (putAnswers_inv cfg { m.ctx with up := u32 (m.ctx.up + 1) } (dataOptions opts)).session
    have hc : m'.ctx.nbTrans = m.ctx.nbTrans := by
      rw [a4, hx]
      show (putAnswers cfg { m.ctx with up := u32 (m.ctx.up + 1) } (dataOptions opts)).2.nbTrans = _
      rw [hpc]
    have ho : m'.opts.nbTrans = (dataOptions opts).nbTrans := by rw [a6, hx]
    unfold nbTransOf repetitions
    rw [hc, ho, dataOptions_nbTrans]
    simp only [Nat.pos_iff_ne_zero, gt_iff_lt]

/-- **C46**: whatever is called after a send request was accepted, until its operation is over the device transmits one
and the same frame with one and the same radio setting, and no more often than the number of repetitions. -/
theorem c46_repetitions {cfg : Cfg} (hE : ∀ k, BlockFn (cfg.E k)) {m : Mac} (hr : Reachable cfg m) (e : Env)
    (confirmed : Bool) (port : Nat) (payload : Option Bytes) (len : Nat) (opts : Option DataOpts)
    (hw : (Call.data confirmed port payload len opts).WF)
    (ha : Accepted (step cfg m e (.data confirmed port payload len opts)).2)
    (calls : List (Env × Call)) (hc : ∀ x ∈ calls, x.2.WF) :
    ∃ k x, k ≤ repetitions opts m.ctx ∧
      sentBy cfg (step cfg m e (.data confirmed port payload len opts)).1 calls = List.replicate k x := by
  have hr' : Reachable cfg (step cfg m e (.data confirmed port payload len opts)).1 := .step e _ hr hw
  obtain ⟨h1, h2, h3⟩ := accepted_counts hr e confirmed port payload len opts ha _ rfl
  have hl := repetitions_lt opts hr.sessionOk
  obtain ⟨k, e1, e2⟩ := sentBy_data hE _ (by rw [h3]; omega) calls hc hr' h1 rfl (by rw [h2, h3]; omega)
  rw [h3] at e2
  exact ⟨k, _, by omega, e1⟩

/-- Two repetitions asked for with the request, and made: the bound is reached. -/
example : (step Demo.cfg Demo.joined (Demo.at_ 30000) (.data false 1 (some [1, 2, 3]) 3 (some { nbTrans := 2 }))).2 = .ok ∧
    sentBy Demo.cfg (step Demo.cfg Demo.joined (Demo.at_ 30000)
        (.data false 1 (some [1, 2, 3]) 3 (some { nbTrans := 2 }))).1 (Demo.cycle 30000 ++ Demo.cycle 7000000) =
      List.replicate 2 (⟨868100000, .b125, 12, 1600⟩, [64, 1, 0, 0, 0, 128, 0, 0, 1, 0, 2, 3, 9, 1, 0, 0]) := by
  decide +kernel

/-! ## C30 -/

/-- The frame of an accepted send, and everything it repeats, is sent with the setting prepared by the request. -/
theorem sent_setting {cfg : Cfg} (hE : ∀ k, BlockFn (cfg.E k)) {m : Mac} (hr : Reachable cfg m) (e : Env)
    (confirmed : Bool) (port : Nat) (payload : Option Bytes) (len : Nat) (opts : Option DataOpts)
    (hw : (Call.data confirmed port payload len opts).WF)
    (ha : Accepted (step cfg m e (.data confirmed port payload len opts)).2)
    (calls : List (Env × Call)) (hc : ∀ x ∈ calls, x.2.WF) (x : TxSetting × Bytes)
    (hx : x ∈ sentBy cfg (step cfg m e (.data confirmed port payload len opts)).1 calls) :
    x = (txSetting (step cfg m e (.data confirmed port payload len opts)).1,
      (step cfg m e (.data confirmed port payload len opts)).1.frame) := by
  have hr' : Reachable cfg (step cfg m e (.data confirmed port payload len opts)).1 := .step e _ hr hw
  obtain ⟨h1, h2, h3⟩ := accepted_counts hr e confirmed port payload len opts ha _ rfl
  have hl := repetitions_lt opts hr.sessionOk
  obtain ⟨k, e1, _⟩ := sentBy_data hE _ (by rw [h3]; omega) calls hc hr' h1 rfl (by rw [h2, h3]; omega)
  rw [e1] at hx
  exact List.eq_of_mem_replicate hx

/-- The data rate range of a channel makes sense: it is not empty, and its ends are uplink rates of the region. -/
def RangeOk (r : Region) (lo hi : Nat) : Prop := lo ≤ hi ∧ lo ∈ upRates r ∧ hi ∈ upRates r

theorem requiredRate_range {r : Region} {d lo hi : Nat} (hd : d ∈ upRates r) (h : RangeOk r lo hi) :
    lo ≤ requiredRate d lo hi ∧ requiredRate d lo hi ≤ hi ∧ requiredRate d lo hi ∈ upRates r := by
  obtain ⟨h1, h2, h3⟩ := h
  unfold requiredRate
  split
  · exact ⟨Nat.le_refl _, h1, h2⟩
  · split
    · exact ⟨h1, Nat.le_refl _, h3⟩
    · exact ⟨by omega, by omega, hd⟩

/-- In the fixed channel plans every range makes sense. -/
theorem rangeOk_fixed {s : Session} (hs : s.region = .us915 ∨ s.region = .au915) {ch f lo hi : Nat}
    (h : chan s ch = some (f, lo, hi)) : RangeOk s.region lo hi := by
  unfold chan at h
  rcases hs with hs | hs <;> rw [hs] at h ⊢ <;> simp only [] at h <;> split at h
  · cases h; exact ⟨by decide, by decide, by decide⟩
  · split at h
    · cases h; exact ⟨by decide, by decide, by decide⟩
    · cases h
  · cases h; exact ⟨by decide, by decide, by decide⟩
  · split at h
    · cases h; exact ⟨by decide, by decide, by decide⟩
    · cases h

/-- The channel, its range and the rate of an accepted send. -/
theorem sent_channel {cfg : Cfg} {m : Mac} (hr : Reachable cfg m) (e : Env)
    (confirmed : Bool) (port : Nat) (payload : Option Bytes) (len : Nat) (opts : Option DataOpts)
    (ha : Accepted (step cfg m e (.data confirmed port payload len opts)).2)
    (m' : Mac) (hm' : m' = (step cfg m e (.data confirmed port payload len opts)).1) :
    ∃ lo hi, Open m 0 m'.tx.chIndex ∧ chan m.ctx m'.tx.chIndex = some (m'.tx.freq, lo, hi) ∧
      m'.tx.rate = requiredRate m.ctx.rate lo hi ∧ m'.ctx.region = m.ctx.region ∧ m'.tx.chIndex ∈ candidates m 0 := by
  obtain ⟨freq, ch, rate, _, _, _, _, hsel, _, hstep⟩ := accepted_send e confirmed port payload len opts ha
  rw [hstep] at hm'
  obtain ⟨x, hx, a1, a2, a3, a4, _⟩ := sendData_fields cfg e _ confirmed port payload len opts _ m' hm'
  obtain ⟨pc, hpc⟩ := (putAnswers_inv cfg { m.ctx with up := u32 (m.ctx.up + 1) } (dataOptions opts)).session
  have hreg : m'.ctx.region = m.ctx.region := by
    rw [a4, hx]
    show (putAnswers cfg { m.ctx with up := u32 (m.ctx.up + 1) } (dataOptions opts)).2.region = _
    rw [hpc]
  obtain ⟨h1, h2, lo, hi, h3, h4⟩ := selectChannel_some _ hr.sessionOk.words _ _ _ _ _ _ hsel
  rw [a3, hx]
  exact ⟨lo, hi, h2, h3, h4, hreg, h1⟩

/-- **C30, partial**: the frame of a send request is transmitted on a channel that, at the time of the request, is
defined, not masked and without off-time in its band, on the frequency of that channel; and, if the rate range of the
channel makes sense, at a data rate within it.  The last condition always holds in the fixed channel plans
(`rangeOk_fixed`); elsewhere neither `LDL_MAC_addChannel` nor NewChannelReq is checked for it, and it can fail
(`c30_inverted_range`). -/
theorem c30_legal_channel_partial {cfg : Cfg} (hE : ∀ k, BlockFn (cfg.E k)) {m : Mac} (hr : Reachable cfg m) (e : Env)
    (confirmed : Bool) (port : Nat) (payload : Option Bytes) (len : Nat) (opts : Option DataOpts)
    (hw : (Call.data confirmed port payload len opts).WF)
    (ha : Accepted (step cfg m e (.data confirmed port payload len opts)).2)
    (calls : List (Env × Call)) (hc : ∀ x ∈ calls, x.2.WF) (s : TxSetting) (frame : Bytes)
    (hx : (s, frame) ∈ sentBy cfg (step cfg m e (.data confirmed port payload len opts)).1 calls) :
    ∃ ch lo hi, ¬ Masked m.ctx ch ∧ chan m.ctx ch = some (s.freq, lo, hi) ∧
      (∃ b, band m.ctx.region s.freq = some b ∧ m.band b = 0) ∧
      (RangeOk m.ctx.region lo hi → ∃ dr, lo ≤ dr ∧ dr ≤ hi ∧
        s.sf = sfOf m.ctx.region dr ∧ bwToNumber s.bw = bwOf m.ctx.region dr) := by
  have hs := sent_setting hE hr e confirmed port payload len opts hw ha calls hc _ hx
  obtain ⟨lo, hi, h1, h2, h3, h4, _⟩ := sent_channel hr e confirmed port payload len opts ha _ rfl
  generalize (step cfg m e (.data confirmed port payload len opts)).1 = m' at hs h1 h2 h3 h4
  simp only [Prod.mk.injEq] at hs
  obtain ⟨hs, _⟩ := hs
  have hf : s.freq = m'.tx.freq := by rw [hs]; rfl
  obtain ⟨hmask, f', lo', hi', b, g1, g2, g3⟩ := h1
  rw [h2] at g1
  cases g1
  refine ⟨m'.tx.chIndex, lo, hi, hmask, hf ▸ h2, ⟨b, hf ▸ g2, by omega⟩, fun hok => ?_⟩
  obtain ⟨r1, r2, r3⟩ := requiredRate_range hr.sessionOk.rate hok
  rw [← h3] at r1 r2 r3
  obtain ⟨c1, c2, _⟩ := convertRate_spec m.ctx.region m'.tx.rate (List.mem_append_left _ r3)
  refine ⟨m'.tx.rate, r1, r2, ?_, ?_⟩
  · rw [hs]
    show (m'.ctx.region.convertRate m'.tx.rate).sf = _
    rw [h4, c1]
  · rw [hs]
    show bwToNumber (m'.ctx.region.convertRate m'.tx.rate).bw = _
    rw [h4, c2]

/-- An idle device whose only unmasked channel was added by the application with the range 5 to 0. -/
def invertedRange : Mac := run Demo.cfg Demo.joined
  [(Demo.at_ 21000, .addChannel 3 868800000 5 0), (Demo.at_ 21000, .maskChannel 0), (Demo.at_ 21000, .maskChannel 1),
   (Demo.at_ 21000, .maskChannel 2), (Demo.at_ 21000, .setRate 3)]

/-- C30 does not hold without the condition on the range: `LDL_MAC_addChannel` takes a channel with data rates 5 to 0,
and a frame is then sent on it at spreading factor 7, data rate 5, above its maximum 0. -/
theorem c30_inverted_range : Reachable Demo.cfg invertedRange ∧ chan invertedRange.ctx 3 = some (868800000, 5, 0) ∧
    Accepted (step Demo.cfg invertedRange (Demo.at_ 30000) (.data false 1 none 0 none)).2 ∧
    sentBy Demo.cfg (step Demo.cfg invertedRange (Demo.at_ 30000) (.data false 1 none 0 none)).1 (Demo.cycle 30000) =
      [(⟨868800000, .b125, 7, 1600⟩, [64, 1, 0, 0, 0, 128, 0, 0, 9, 1, 0, 0])] :=
  ⟨Demo.run_reach Demo.joined_reachable _ (by decide +kernel), by decide +kernel, by decide +kernel, by decide +kernel⟩

/-- A channel in order, used. -/
example : RangeOk .eu868 0 5 ∧ chan Demo.joined.ctx 0 = some (868100000, 0, 5) ∧ ¬ Masked Demo.joined.ctx 0 ∧
    sentBy Demo.cfg (step Demo.cfg Demo.joined (Demo.at_ 30000) (.data false 1 none 0 none)).1 (Demo.cycle 30000) =
      [(⟨868100000, .b125, 12, 1600⟩, [64, 1, 0, 0, 0, 128, 0, 0, 9, 1, 0, 0])] := by
  refine ⟨⟨by decide, by decide, by decide⟩, by decide +kernel, by decide +kernel, by decide +kernel⟩

/-! ## C31 -/

/-- **C31**: if the channel used before is open and another one too, it is not used again. -/
theorem c31_no_repetition {cfg : Cfg} {m : Mac} (hr : Reachable cfg m) (e : Env)
    (confirmed : Bool) (port : Nat) (payload : Option Bytes) (len : Nat) (opts : Option DataOpts)
    (ha : Accepted (step cfg m e (.data confirmed port payload len opts)).2)
    (ch : Nat) (ho : Open m 0 ch) (hne : ch ≠ m.tx.chIndex) :
    (step cfg m e (.data confirmed port payload len opts)).1.tx.chIndex ≠ m.tx.chIndex := by
  obtain ⟨lo, hi, h1, _, _, _, h5⟩ := sent_channel hr e confirmed port payload len opts ha _ rfl
  generalize (step cfg m e (.data confirmed port payload len opts)).1 = m' at h1 h5
  intro he
  rw [he] at h1 h5
  have ha1 := (mem_available m hr.sessionOk.words _ 0).2 h1
  have ha2 := (mem_available m hr.sessionOk.words _ 0).2 ho
  unfold candidates at h5
  split at h5
  · have := (List.mem_filter.1 h5).2
    simp at this
  · next hcon =>
    apply hcon
    refine ⟨ha1, ?_⟩
    intro h1'
    obtain ⟨y, hy⟩ := List.length_eq_one_iff.1 h1'
    rw [hy] at ha1 ha2
    exact hne ((List.mem_singleton.1 ha2).trans (List.mem_singleton.1 ha1).symm)

/-- **C31**: every other open channel, and the only one, is used for some value of the random number generator. -/
theorem c31_every_channel {cfg : Cfg} {m : Mac} (hr : Reachable cfg m)
    (confirmed : Bool) (port : Nat) (payload : Option Bytes) (len : Nat) (opts : Option DataOpts)
    (hs : Sendable m port len) (ch : Nat) (ho : Open m 0 ch)
    (hne : ch ≠ m.tx.chIndex ∨ ∀ ch', Open m 0 ch' → ch' = ch) :
    ∃ v < 72, ∀ e : Env, e.draw 1 = v →
      Accepted (step cfg m e (.data confirmed port payload len opts)).2 ∧
      (step cfg m e (.data confirmed port payload len opts)).1.tx.chIndex = ch := by
  have hw := hr.sessionOk.words
  have ha := (mem_available m hw ch 0).2 ho
  have hcand : ch ∈ candidates { m with tx := { m.tx with
          power := m.ctx.power
          rate := m.ctx.region.applyUplinkDwell (uplinkDwell m.ctx.txParamSetup) m.ctx.rate } } 0 := by
    show ch ∈ candidates m 0
    unfold candidates
    split
    · next hc =>
      rcases hne with hne | hall
      · exact List.mem_filter.2 ⟨ha, by simpa using hne⟩
      · exfalso
        have hnd := available_nodup m 0
        apply hc.2
        have : ∀ x ∈ availableChannels m 0, x = ch := fun x hx => hall x ((mem_available m hw x 0).1 hx)
        revert this hnd ha
        generalize availableChannels m 0 = l
        intro ha hnd hall
        match l, ha, hnd, hall with
        | [_], _, _, _ => rfl
        | a :: b :: l, _, hnd, hall =>
          have h1 := hall a (by simp)
          have h2 := hall b (by simp)
          subst h1
          rw [h2] at hnd
          simp at hnd
    · exact ha
  obtain ⟨v, hv, f, r, hsel⟩ := selectChannel_of_candidate { m with tx := { m.tx with
          power := m.ctx.power
          rate := m.ctx.region.applyUplinkDwell (uplinkDwell m.ctx.txParamSetup) m.ctx.rate } } hw m.ctx.rate 0 ch hcand
  refine ⟨v, hv, fun e he => ?_⟩
  have hacc := (c24_accepted_iff hr e confirmed port payload len opts).2 hs
  refine ⟨hacc, ?_⟩
  obtain ⟨freq, ch', rate, _, _, _, _, hsel', _, hstep⟩ := accepted_send e confirmed port payload len opts hacc
  rw [he] at hsel'
  have heq := hsel.symm.trans hsel'
  cases heq
  obtain ⟨x, hx, _, _, a3, _⟩ := sendData_fields cfg e _ confirmed port payload len opts _ _ (congrArg Prod.fst hstep)
  rw [a3, hx]

/-- **C31**: a request that is in order otherwise is refused for lack of a channel exactly when no channel is open
or there is aggregate off-time. -/
theorem c31_selects_iff {cfg : Cfg} {m : Mac} (hr : Reachable cfg m) (e : Env)
    (confirmed : Bool) (port : Nat) (payload : Option Bytes) (len : Nat) (opts : Option DataOpts)
    (hj : m.ctx.joined = true) (ho : m.op = .none) (hp : 1 ≤ port ∧ port ≤ 223) :
    (step cfg m e (.data confirmed port payload len opts)).2 = .noChannel ↔
      ¬ (m.band GLOBAL = 0 ∧ ∃ ch, Open m 0 ch) := by
  rcases send_outcome hr e confirmed port payload len opts with ⟨h1, h2⟩ | ⟨h1, _⟩
  · obtain ⟨_, _, _, _, g, o, _⟩ := h1
    refine ⟨fun h => ?_, fun h => absurd ⟨g, o⟩ h⟩
    rcases h2 with h2 | h2 <;> rw [h] at h2 <;> cases h2
  · revert h1
    generalize (step cfg m e (.data confirmed port payload len opts)).2 = st
    intro h1
    cases h1 with
    | notJoined h => rw [hj] at h; cases h
    | busy _ h => exact absurd ho h
    | port _ _ h => exact absurd hp h
    | noChannel _ _ _ h => exact ⟨fun _ hh => by rcases h with h | h; exact h hh.1; exact h hh.2, fun _ => rfl⟩
    | size _ _ _ g o _ => exact ⟨fun h => by simp at h, fun h => absurd ⟨g, o⟩ h⟩

/-- Three channels are open; the last one used is then left out, and the random number decides between the others. -/
example : (List.range 3).map (fun v => (step Demo.cfg { Demo.joined with tx := { chIndex := 1 } }
      { now := 30000, rand := fun _ => v } (.data false 1 none 0 none)).1.tx.chIndex) = [0, 2, 0] := by decide +kernel

/-! ## C59 -/

theorem minFold_zero (f : Nat → Nat) (l : List Nat) (x : Nat) (hx : x ≠ 0) :
    l.foldl (fun min i => if min > f i then f i else min) x = 0 ↔ ∃ i ∈ l, f i = 0 := by
  have h0 : ∀ l : List Nat, l.foldl (fun min i => if min > f i then f i else min) 0 = 0 := by
    intro l
    induction l with
    | nil => rfl
    | cons a l ih => rw [List.foldl_cons, if_neg (by omega)]; exact ih
  induction l generalizing x with
  | nil => simpa using hx
  | cons a l ih =>
    rw [List.foldl_cons]
    by_cases ha : f a = 0
    · rw [if_pos (by omega), ha, h0]
      simp [ha]
    · have : (if x > f a then f a else x) ≠ 0 := by split <;> omega
      refine (ih _ this).trans ?_
      simp [ha]

theorem timeUntilNextChannel_zero {m : Mac} (hw : ChanWords m.ctx) :
    timeUntilNextChannel m = 0 ↔ m.band GLOBAL = 0 ∧ ∃ ch, Open m 0 ch := by
  unfold timeUntilNextChannel
  rw [minFold_zero (timeUntilAvailable m) _ _ (by decide)]
  have key : ∀ ch, ch < m.ctx.region.numChannels → (timeUntilAvailable m ch = 0 ↔ m.band GLOBAL = 0 ∧ Open m 0 ch) := by
    intro ch hch
    have h1 := isAvailable_iff m hw ch 0 hch
    unfold timeUntilAvailable
    unfold isAvailable at h1
    cases hb : usableBand m.ctx ch with
    | none =>
      rw [hb] at h1
      simp only [Bool.false_eq_true, false_iff] at h1
      simp [h1, UINT32_MAX]
    | some b =>
      rw [hb] at h1
      simp only [] at h1 ⊢
      rw [← h1, decide_eq_true_iff]
      split <;> omega
  constructor
  · rintro ⟨ch, hc, h⟩
    obtain ⟨h1, h2⟩ := (key ch (List.mem_range.1 hc)).1 h
    exact ⟨h1, ch, h2⟩
  · rintro ⟨hg, ch, h⟩
    have := ((mem_available m hw ch 0).2 h)
    unfold availableChannels at this
    have hc := (List.mem_filter.1 this).1
    exact ⟨ch, hc, (key ch (List.mem_range.1 hc)).2 ⟨hg, h⟩⟩

/-- **C59**: a device reports ready exactly when it is idle, has no aggregate off-time and some channel is open. -/
theorem c59_ready_iff {cfg : Cfg} {m : Mac} (hr : Reachable cfg m) :
    ready m = true ↔ m.state = .idle ∧ m.band GLOBAL = 0 ∧ ∃ ch, Open m 0 ch := by
  unfold ready
  rw [← timeUntilNextChannel_zero hr.sessionOk.words]
  by_cases h : m.state = .idle
  · simp [h]
  · simp [h]

/-- **C59**: a send requested while the device reports ready is not refused for lack of a channel. -/
theorem c59_ready {cfg : Cfg} {m : Mac} (hr : Reachable cfg m) (h : ready m = true) (e : Env)
    (confirmed : Bool) (port : Nat) (payload : Option Bytes) (len : Nat) (opts : Option DataOpts) :
    (step cfg m e (.data confirmed port payload len opts)).2 ≠ .noChannel := by
  obtain ⟨_, hg, ho⟩ := (c59_ready_iff hr).1 h
  rcases send_outcome hr e confirmed port payload len opts with ⟨_, h2⟩ | ⟨h1, _⟩
  · intro h; rcases h2 with h2 | h2 <;> rw [h] at h2 <;> cases h2
  · revert h1
    generalize (step cfg m e (.data confirmed port payload len opts)).2 = st
    intro h1 h
    subst h
    cases h1 with
    | noChannel _ _ _ h => rcases h with h | h; exact h hg; exact h ho

/-- A device that reports ready, and one that does not. -/
example : ready Demo.joined = true ∧ ready Demo.onAir = false ∧ Demo.joined.op = .none := by decide +kernel

/-! ## C43 -/

theorem maxPayload_mono (r : Region) : ∀ a ∈ upRates r, ∀ b ∈ upRates r, a ≤ b → maxPayload r a ≤ maxPayload r b := by
  cases r <;> decide +kernel

/-- Length of a frame built from MAC commands and data. -/
theorem placed_length {cfg : Cfg} (hE : ∀ k, BlockFn (cfg.E k)) (m : Mac) (f0 f : Frame.Data) (c : Bool) (st : Status)
    (hf : f0.data = none ∧ f0.dataLen = 0 ∧ f0.opts = [])
    (confirmed : Bool) (macs : Bytes) (h21 : macs.length ≤ 21) (data : Option Bytes) (len max : Nat)
    (hd : ∀ d, data = some d → d.length = len) (hp : placeMacData f0 confirmed macs data len max = (f, c, st))
    (ho : f.opts.length ≤ 15) :
    (st = .ok → (sealed cfg m f).body.length + 4 ≤ max + 5) ∧ (st ≠ .ok → (sealed cfg m f).body.length + 4 ≤ 34) := by
  rw [sealed_length hE m f ho, body_length, toSpec_fopts ho]
  have hpay : ∀ d, f.data = some d → (portPayload (Frame.toSpec f).payload).length = d.length + 1 := by
    intro d h
    have : (Frame.toSpec f).payload = some (f.port, d) := by unfold Frame.toSpec; rw [h]; rfl
    rw [this]; rfl
  have hpay0 : f.data = none → (portPayload (Frame.toSpec f).payload).length = 0 := by
    intro h
    have : (Frame.toSpec f).payload = none := by unfold Frame.toSpec; rw [h]; rfl
    rw [this]; rfl
  have h8 : Frame.dataOverhead = 8 := rfl
  unfold placeMacData at hp
  by_cases h1 : macs.length > 15
  · rw [if_pos h1] at hp
    cases hp
    refine ⟨by simp, fun _ => ?_⟩
    rw [hpay macs rfl]
    have : f0.opts.length = 0 := by rw [hf.2.2]; rfl
    simp only [this]
    omega
  · rw [if_neg h1] at hp
    by_cases h2 : len + Frame.dataOverhead + macs.length > max
    · rw [if_pos h2] at hp
      cases hp
      refine ⟨by simp, fun _ => ?_⟩
      rw [hpay0 hf.1]
      simp only []
      omega
    · rw [if_neg h2] at hp
      cases hp
      refine ⟨fun _ => ?_, by simp⟩
      cases hdat : data with
      | none =>
        rw [hdat] at hpay0
        rw [hpay0 rfl]
        simp only []
        omega
      | some d =>
        have := hd d hdat
        rw [hdat] at hpay
        rw [hpay d rfl]
        simp only []
        omega

/-- **C43, partial**: a data frame is no longer than the regional maximum (five bytes of header and MIC more than the
largest MAC payload) at the data rate it is sent with.  This needs that the data rate set does not exceed the range of
an open channel (the limit is looked up for the rate set, not for the one used: `c43_channel_limit`); and MAC commands
sent in place of the payload may exceed the 19 bytes of US915 data rate 0 (`c43_mac_priority`), which is why these are
excluded. -/
theorem c43_fits_partial {cfg : Cfg} (hE : ∀ k, BlockFn (cfg.E k)) {m : Mac} (hr : Reachable cfg m) (e : Env)
    (confirmed : Bool) (port : Nat) (payload : Option Bytes) (len : Nat) (opts : Option DataOpts)
    (hw : (Call.data confirmed port payload len opts).WF) (hnull : payload = none → len = 0)
    (ha : Accepted (step cfg m e (.data confirmed port payload len opts)).2)
    (hrate : ∀ ch f lo hi, Open m 0 ch → chan m.ctx ch = some (f, lo, hi) → RangeOk m.ctx.region lo hi ∧ m.ctx.rate ≤ hi)
    (hus : (step cfg m e (.data confirmed port payload len opts)).2 = .macPriority →
      29 ≤ maxPayload m.ctx.region m.ctx.rate)
    (calls : List (Env × Call)) (hc : ∀ x ∈ calls, x.2.WF) (s : TxSetting) (frame : Bytes)
    (hx : (s, frame) ∈ sentBy cfg (step cfg m e (.data confirmed port payload len opts)).1 calls) :
    ∃ dr ∈ upRates m.ctx.region, s.sf = sfOf m.ctx.region dr ∧ bwToNumber s.bw = bwOf m.ctx.region dr ∧
      frame.length ≤ maxPayload m.ctx.region dr + 5 := by
  have hs := sent_setting hE hr e confirmed port payload len opts hw ha calls hc _ hx
  obtain ⟨lo, hi, h1, h2, h3, h4, _⟩ := sent_channel hr e confirmed port payload len opts ha _ rfl
  obtain ⟨freq, ch, rate, f, c, _, hp, ho, _, hlen, hfr, _⟩ :=
    send_frame hE hr e confirmed port payload len opts hw hnull ha _ rfl
  have hrt := hr.sessionOk.rate
  have hmtu : (m.ctx.region.convertRate m.ctx.rate).mtu = maxPayload m.ctx.region m.ctx.rate :=
    (convertRate_spec m.ctx.region m.ctx.rate (List.mem_append_left _ hrt)).2.2
  rw [hmtu] at hp hlen
  generalize (step cfg m e (.data confirmed port payload len opts)).1 = m' at hs h1 h2 h3 h4 hfr
  generalize (step cfg m e (.data confirmed port payload len opts)).2 = st at hp ha hus
  simp only [Prod.mk.injEq] at hs
  obtain ⟨hs, hfrm⟩ := hs
  obtain ⟨hok, hle⟩ := hrate _ _ _ _ h1 h2
  obtain ⟨r1, r2, r3⟩ := requiredRate_range hrt hok
  have hge : m.ctx.rate ≤ m'.tx.rate := by
    rw [h3]; unfold requiredRate; split <;> (try split) <;> omega
  rw [← h3] at r1 r2 r3
  obtain ⟨c1, c2, _⟩ := convertRate_spec m.ctx.region m'.tx.rate (List.mem_append_left _ r3)
  refine ⟨m'.tx.rate, r3, ?_, ?_, ?_⟩
  · rw [hs]
    show (m'.ctx.region.convertRate m'.tx.rate).sf = _
    rw [h4, c1]
  · rw [hs]
    show bwToNumber (m'.ctx.region.convertRate m'.tx.rate).bw = _
    rw [h4, c2]
  · have hmono := maxPayload_mono m.ctx.region _ hrt _ r3 hge
    have hpl := placed_length hE m (dataHeader m confirmed port) f c st ⟨rfl, rfl, rfl⟩ confirmed _
      (uplinkAnswers_bytes cfg m (dataOptions opts)).2 payload len _ hw.2.2.1 hp ho
    have hl : frame.length = (sealed cfg m f).body.length + 4 := by
      rw [hfrm, hfr, List.length_append, Stream.le_length]
    by_cases hst : st = .ok
    · have := hpl.1 hst
      omega
    · have h34 := hpl.2 hst
      have := hus (ha.resolve_left hst)
      omega

/-- An idle device with data rate 5 whose only unmasked channel was added by the application for data rate 0. -/
def slowChannel : Mac := run Demo.cfg Demo.joined
  [(Demo.at_ 21000, .addChannel 3 868800000 0 0), (Demo.at_ 21000, .maskChannel 0), (Demo.at_ 21000, .maskChannel 1),
   (Demo.at_ 21000, .maskChannel 2), (Demo.at_ 21000, .setRate 5)]

/-- C43 does not hold when the data rate set is above the range of the channel used: the size is checked for data
rate 5, and a frame of 213 bytes is sent at data rate 0, where 64 are allowed. -/
theorem c43_channel_limit : Reachable Demo.cfg slowChannel ∧
    (step Demo.cfg slowChannel (Demo.at_ 30000) (.data false 1 (some (List.replicate 200 7)) 200 none)).2 = .ok ∧
    (sentBy Demo.cfg (step Demo.cfg slowChannel (Demo.at_ 30000)
      (.data false 1 (some (List.replicate 200 7)) 200 none)).1 (Demo.cycle 30000)).map
        (fun x => (x.1.sf, x.2.length)) = [(12, 213)] ∧
    sfOf .eu868 0 = 12 ∧ maxPayload .eu868 0 + 5 = 64 :=
  ⟨Demo.run_reach Demo.joined_reachable _ (by decide +kernel), by decide +kernel, by decide +kernel, by decide, by decide⟩

/-- A joined US915 device. -/
def usJoined : Mac := run Demo.cfg (init Demo.cfg .us915 {} (Demo.at_ 0)) (Demo.boot ++ [(Demo.at_ 20000, .abp 1)])

/-- The session of `usJoined`, with an answer due to every request of LoRaWAN 1.0. -/
def usBusy : Session := { usJoined.ctx with pendingCmds := 0x1fe }

theorem usJoined_reachable : Reachable Demo.cfg usJoined :=
  Demo.run_reach (.init _ _ _ (by simp) ⟨rfl, rfl, rfl, rfl, by decide, by decide⟩) _ (by decide +kernel)

theorem usBusy_ok : SessionOk usBusy := by
  have h := usJoined_reachable.sessionOk
  exact ⟨h.rate, h.power, h.words, h.up, h.appDown, h.nwkDown, h.devAddr, h.netID, h.joinNonce, h.devNonce, h.nbTrans,
    h.rx1DROffset, h.rx2DataRate, h.rx1Delay, h.adrAckLimit, h.adrAckDelay, h.fresh, h.magic, h.mask, h.txParamSetup⟩

/-- C43 does not hold for MAC commands sent in place of the payload: in US915 at data rate 0, 26 bytes are sent where
24 are allowed. -/
theorem c43_mac_priority :
    Reachable Demo.cfg (run Demo.cfg (init Demo.cfg .us915 { session := some usBusy } (Demo.at_ 0)) Demo.boot) ∧
    (sentBy Demo.cfg (step Demo.cfg (run Demo.cfg (init Demo.cfg .us915 { session := some usBusy } (Demo.at_ 0))
      Demo.boot) (Demo.at_ 30000) (.data false 1 (some [1, 2, 3]) 3 none)).1 (Demo.cycle 30000)).map
        (fun x => (x.1.sf, x.2.length)) = [(10, 26)] ∧
    sfOf .us915 0 = 10 ∧ maxPayload .us915 0 + 5 = 24 := by
  refine ⟨Demo.run_reach (.init _ _ _ ?_ ⟨rfl, rfl, rfl, rfl, by decide, by decide⟩) _ (by decide +kernel),
    by decide +kernel, by decide, by decide⟩
  intro s hs
  cases hs
  exact usBusy_ok

/-- The hypotheses of `c43_fits_partial` are met by the demonstration device; the largest payload allowed at data
rate 0 makes a frame of exactly the regional maximum. -/
example : (∀ ch ∈ List.range 16, ∀ x, chan Demo.joined.ctx ch = some x → x.2 = (0, 5)) ∧ Demo.joined.ctx.rate = 0 ∧
    (sentBy Demo.cfg (step Demo.cfg Demo.joined (Demo.at_ 30000)
      (.data false 1 (some (List.replicate 51 7)) 51 none)).1 (Demo.cycle 30000)).map
        (fun x => (x.1.sf, x.2.length)) = [(12, 64)] := by
  refine ⟨?_, by decide +kernel, by decide +kernel⟩
  intro ch hch x hx
  have : (List.range 16).all (fun ch => (chan Demo.joined.ctx ch).all fun x => x.2 == (0, 5)) = true := by decide +kernel
  have := List.all_eq_true.1 this ch hch
  rw [hx] at this
  simpa using this

/-! ## C60 -/

/-- **C60, first half**: the radio is given something to transmit only by `LDL_MAC_process`, and only while a join or a
send operation is in progress, one frame at a time. -/
theorem c60_only_in_operations {cfg : Cfg} {m : Mac} (hr : Reachable cfg m) (e : Env) (c : Call)
    (h : transmitted ((step cfg m e c).1.out.drop m.out.length) ≠ []) :
    c = .process ∧ (kindOf m.op = some .join ∨ kindOf m.op = some .unconfirmed ∨ kindOf m.op = some .confirmed) ∧
      (step cfg m e c).1.op = m.op ∧ (transmitted ((step cfg m e c).1.out.drop m.out.length)).length = 1 := by
  obtain ⟨o, h1, h2, _⟩ := step_does cfg e m c hr.reach.opOk
  have hnew : (step cfg m e c).1.out.drop m.out.length = o := by rw [h1, List.drop_left]
  rw [hnew] at h ⊢
  generalize (step cfg m e c).1 = m' at h2
  change OpStep cfg e m c m' (transmitted o) (nonceReports o) at h2
  generalize transmitted o = t at h2 h
  generalize nonceReports o = nr at h2
  cases h2 with
  | sent ho hc hs hs' hk ht hb =>
    refine ⟨hc, ?_, hk.op, rfl⟩
    rcases ho with h | h | h <;> rw [h] <;> simp [kindOf]
  | _ => exact absurd rfl h

/-- A transmission is started by processing a send operation. -/
example : (run Demo.cfg Demo.start (Demo.sending true |>.take 6)).op = .dataConfirmed ∧
    (transmitted ((run Demo.cfg Demo.start (Demo.sending true)).out.drop
      (run Demo.cfg Demo.start (Demo.sending true |>.take 6)).out.length)).length = 1 := by decide +kernel

end LDL
