import Verif.Spec.Standard
import Verif.Props.Answers

/-!
# C61 and C86: MAC commands against the standard

`c61_obeyed` and `c44_all_or_nothing_partial` say exactly what the device makes of MAC commands.  Here this is compared
with what the standard requires (`Spec/Standard`).
-/

namespace LDL
open Spec Frame

/-! ## C61 -/

theorem upRates_definable {r : Region} (h : definable r = true) (d : Nat) : d ∈ upRates r ↔ d ≤ 5 := by
  cases r <;> simp [definable, upRates] at h ⊢ <;> omega

theorem plain_net (r : Region) (v b : Nat) (snr : Int) (p : Params) (c : DownCmd) (h : Plain r p.net c) :
    (obey r v b snr p c).net = effect r p.net c := by
  cases c <;> simp only [obey, effect]
  case dutyCycle => rfl
  case rxParamSetup o d f =>
    have h : o ≤ maxRx1Offset r ∧ d ∈ downRates r ∧ channelFreq r f = true := h
    rw [if_pos h]; rfl
  case devStatus => rfl
  case newChannel i f hi lo =>
    by_cases hd : definable r = true
    · obtain ⟨h1, h2, h3⟩ := h hd
      rw [if_pos hd]
      have hu := upRates_definable hd hi
      by_cases ha : defaultChannels r ≤ i ∧ i < 16 ∧ lo ≤ hi ∧ hi ∈ upRates r ∧ (f = 0 ∨ channelFreq r f = true)
      · rw [if_pos ⟨hd, ha⟩]
        obtain ⟨_, a2, _, a4, a5⟩ := ha
        have a5 : channelFreq r f = true := a5.resolve_left h2
        have hr : decide (i < 16 ∧ hi ≤ 5) = true := decide_eq_true ⟨a2, hu.mp a4⟩
        unfold Params.net Params.answer
        simp only [a5, hr, and_true, if_neg h2]
        congr 1
        funext j
        by_cases hj : j = i <;> simp [hj]
      · rw [if_neg (by rintro ⟨_, hc⟩; exact ha hc)]
        have hn : ¬ (decide (i < 16 ∧ hi ≤ 5) = true ∧ channelFreq r f = true) := by
          rintro ⟨hr, hf⟩
          have hr := of_decide_eq_true hr
          refine ha ⟨h1, hr.1, ?_, hu.mpr hr.2, Or.inr hf⟩
          rcases h3 with h3 | h3 | h3
          · exact h3
          · omega
          · exact absurd (hu.mpr hr.2) h3
        unfold Params.net Params.answer
        have hn' : ∀ j, ¬ (j = i ∧ decide (i < 16 ∧ hi ≤ 5) = true ∧ channelFreq r f = true) := fun j hc => hn hc.2
        simp only [if_neg (hn' _)]
    · rw [if_neg hd, if_neg (by rintro ⟨hc, _⟩; exact hd hc)]
  case dlChannel i f =>
    by_cases hd : definable r = true
    · obtain ⟨h1, h2⟩ := h hd
      rw [if_pos hd]
      by_cases hf : channelFreq r f = true
      · rw [if_pos ⟨hd, h1, hf⟩]
        have : p.net.down = fun j => if j = i then some f else p.net.down j := by
          funext j
          by_cases hj : j = i
          · rw [if_pos hj, hj, h2 hf]
          · rw [if_neg hj]
        rw [← this]
        rfl
      · rw [if_neg (by rintro ⟨_, _, hc⟩; exact hf hc)]; rfl
    · rw [if_neg hd, if_neg (by rintro ⟨hc, _⟩; exact hd hc)]
  case rxTimingSetup d =>
    have : max 1 d = d := by have : d ≠ 0 := h; omega
    rw [this]; rfl
  case txParamSetup v => split <;> rfl
  case adrParamSetup => rfl
  case rekey => split <;> rfl
  case rejoinParamSetup => rfl

theorem fold_net (r : Region) (v b : Nat) (snr : Int) (cs : List DownCmd) (p : Params) (h : AllPlain r p.net cs) :
    (cs.foldl (obey r v b snr) p).net = cs.foldl (effect r) p.net := by
  induction cs generalizing p with
  | nil => rfl
  | cons c cs ih =>
    have hc := plain_net r v b snr p c h.1
    rw [List.foldl_cons, List.foldl_cons, ih _ (by rw [hc]; exact h.2), hc]

theorem allPlain_split {r : Region} {a : List DownCmd} {c : DownCmd} {b : List DownCmd} :
    ∀ {n : Net}, AllPlain r n (a ++ c :: b) → AllPlain r n a ∧ Plain r (a.foldl (effect r) n) c := by
  induction a with
  | nil => intro n h; exact ⟨trivial, h.1⟩
  | cons x a ih => intro n h; exact ⟨⟨h.1, (ih h.2).1⟩, (ih h.2).2⟩

/-- **C61**: after a downlink, the parameters the network sets are those the standard prescribes.

Partial: for requests that are `Plain`.  The others are `c61_delay_zero`, `c61_rx_param_unchecked`,
`c61_channel_not_removed`, `c61_dl_channel`, `c54_inverted`, `c54_default_redefined`. -/
theorem c61_standard_partial {cfg : Cfg} {m : Mac} {e : Env} {msg : DownMsg} (h : Gets cfg m e msg)
    (hp : AllPlain m.ctx.region (params m.ctx).net (cmds cfg msg)) :
    (params (process cfg e m).ctx).net = (cmds cfg msg).foldl (effect m.ctx.region) (params m.ctx).net := by
  rw [(c61_obeyed h).1]
  exact fold_net _ _ _ _ _ _ hp

/-- The contents of an answer. -/
def content (p : Params) : UpCmd → Prop
  | .rxParamSetupAns a b c => p.rxParamAns = (a, b, c)
  | .newChannelAns a b => p.newChannelAns = (a, b)
  | .dlChannelAns a b => p.dlChannelAns = (a, b)
  | .devStatusAns a b => p.devStatusAns = (a, b)
  | .rejoinParamSetupAns a => p.rejoinParamAns = a
  | _ => True

theorem reply_type {r : Region} {b : Nat} {snr : Int} {n : Net} {c : DownCmd} {u : UpCmd}
    (h : reply r b snr n c = some u) : ∃ t, requests r c = some t ∧ t ≠ .linkADR ∧ t ≠ .rekey := by
  cases c <;> simp only [reply, requests] at h ⊢ <;> (try split at h) <;>
    first | cases h; done | exact ⟨_, rfl, by decide, by decide⟩ | (next hd => exact ⟨_, if_pos hd, by decide, by decide⟩)

theorem reply_content {r : Region} {v b : Nat} {snr : Int} {p : Params} {c : DownCmd} {u : UpCmd}
    (h : reply r b snr p.net c = some u) (hp : Plain r p.net c) : content (obey r v b snr p c) u := by
  cases c <;> simp only [reply, obey] at h ⊢ <;> (try split at h) <;> (try cases h; done) <;>
    (simp only [Option.some.injEq] at h; subst h) <;> (try trivial)
  case rxParamSetup o d f =>
    obtain ⟨h1, h2, h3⟩ := hp
    show (true, true, true) = _
    rw [decide_eq_true h1, decide_eq_true h2, h3]
  case newChannel.isTrue i f hi lo hd =>
    obtain ⟨h1, h2, h3⟩ := hp hd
    have hu := upRates_definable hd hi
    rw [if_pos hd]
    show (decide (i < 16 ∧ hi ≤ 5), channelFreq r f) = _
    have hf : decide (f = 0) = false := decide_eq_false h2
    rw [hf, Bool.false_or]
    congr 1
    rw [decide_eq_decide, hu]
    constructor
    · rintro ⟨a, b⟩
      refine ⟨h1, a, ?_, b⟩
      rcases h3 with h3 | h3 | h3
      · exact h3
      · omega
      · exact absurd (hu.mpr b) h3
    · rintro ⟨_, a, _, b⟩; exact ⟨a, b⟩
  case dlChannel.isTrue i f hd =>
    obtain ⟨h1, _⟩ := hp hd
    rw [if_pos hd, h1]
    rfl

theorem content_keeps {r : Region} {v b : Nat} {snr : Int} {n : Net} {c : DownCmd} {u : UpCmd} {t : CmdType}
    (h : reply r b snr n c = some u) (ht : requests r c = some t) (p : Params) (d : DownCmd) (hd : requests r d ≠ some t)
    (hc : content p u) : content (obey r v b snr p d) u := by
  cases c <;> simp only [reply, requests] at h ht <;> (try split at h) <;> (try cases h; done) <;>
    (simp only [Option.some.injEq] at h; subst h) <;> (try trivial) <;> (try rw [if_pos (by assumption)] at ht) <;>
    (simp only [Option.some.injEq] at ht; subst ht) <;>
    (cases d <;> simp only [obey, requests] at hd ⊢ <;> (try split at hd) <;>
      first | exact hc | exact absurd rfl hd | (split <;> exact hc))

theorem v11_only {bs : Bytes} {c : DownCmd} (h : c ∈ parseCommands false bs) :
    (∀ l d, c ≠ .adrParamSetup l d) ∧ (∀ l d, c ≠ .rejoinParamSetup l d) := by
  have step : ∀ (bs : Bytes) c r, nextCommand false bs = some (c, r) →
      (∀ l d, c ≠ .adrParamSetup l d) ∧ (∀ l d, c ≠ .rejoinParamSetup l d) := by
    intro bs c r h
    unfold nextCommand at h
    repeat' split at h
    all_goals
      first
        | (cases h; done)
        | exact absurd (by assumption : false = true) (by decide)
        | (simp only [Option.some.injEq, Prod.mk.injEq] at h
           obtain ⟨h, _⟩ := h
           subst h
           exact ⟨fun _ _ hc => (nomatch hc), fun _ _ hc => (nomatch hc)⟩)
  have all : ∀ fuel (bs : Bytes), c ∈ parseCommandsAux false fuel bs →
      (∀ l d, c ≠ .adrParamSetup l d) ∧ (∀ l d, c ≠ .rejoinParamSetup l d) := by
    intro fuel
    induction fuel with
    | zero => intro bs h; cases h
    | succ n ih =>
      intro bs h
      unfold parseCommandsAux at h
      split at h
      · cases h
      · next c' r hc =>
        rcases List.mem_cons.mp h with rfl | h
        · exact step _ _ _ hc
        · exact ih _ h
  exact all _ _ h

theorem mem_answers {v11 : Bool} {s : Session} {r : Region} {b : Nat} {snr : Int} {n : Net} {c : DownCmd} {u : UpCmd}
    {t : CmdType} (h : reply r b snr n c = some u) (ht : requests r c = some t) (hd : Due s t)
    (hv : v11 = false → (∀ l d, c ≠ .adrParamSetup l d) ∧ (∀ l d, c ≠ .rejoinParamSetup l d))
    (hc : content (params s) u) : u ∈ answers v11 s false false := by
  unfold answers
  simp only [List.mem_append, or_assoc]
  cases c <;> simp only [reply, requests] at h ht <;> (try split at h) <;> (try cases h; done) <;>
    (simp only [Option.some.injEq] at h; subst h) <;> (try rw [if_pos (by assumption)] at ht) <;>
    (simp only [Option.some.injEq] at ht; subst ht)
  case dutyCycle => simp [hd]
  case rxParamSetup =>
    simp only [content, params, Prod.mk.injEq] at hc
    obtain ⟨h1, h2, h3⟩ := hc
    rw [← h1, ← h2, ← h3]
    simp [hd]
  case devStatus =>
    simp only [content, params, Prod.mk.injEq] at hc
    obtain ⟨h1, h2⟩ := hc
    rw [← h1, ← h2]
    simp [hd]
  case newChannel =>
    simp only [content, params, Prod.mk.injEq] at hc
    obtain ⟨h1, h2⟩ := hc
    rw [← h1, ← h2]
    simp [hd]
  case dlChannel =>
    simp only [content, params, Prod.mk.injEq] at hc
    obtain ⟨h1, h2⟩ := hc
    rw [← h1, ← h2]
    simp [hd]
  case rxTimingSetup => simp [hd]
  case txParamSetup => simp [hd]
  case adrParamSetup l d =>
    cases v11 with
    | false => exact absurd rfl ((hv rfl).1 l d)
    | true => simp [hd]
  case rejoinParamSetup l d =>
    cases v11 with
    | false => exact absurd rfl ((hv rfl).2 l d)
    | true =>
      have hc : s.rejoinTimeOK = false := hc
      simp [hd, hc]

/-- **C61**, answers: the answer the standard prescribes for a request is among those of the next uplink.

Partial: for requests that are `Plain`, and of several requests of one kind in a downlink only for the last
(`c61_one_answer`); LinkADRReq is C86. -/
theorem c61_answered_partial {cfg : Cfg} {m : Mac} {e : Env} {msg : DownMsg} (h : Gets cfg m e msg)
    (hp : AllPlain m.ctx.region (params m.ctx).net (cmds cfg msg)) {a b : List DownCmd} {c : DownCmd} {u : UpCmd}
    (hc : cmds cfg msg = a ++ c :: b)
    (hlast : ∀ d ∈ b, requests m.ctx.region d ≠ requests m.ctx.region c)
    (hu : reply m.ctx.region (e.battery % 256) e.snr (a.foldl (effect m.ctx.region) (params m.ctx).net) c = some u) :
    u ∈ answers cfg.v11 (process cfg e m).ctx false false := by
  rw [hc] at hp
  obtain ⟨hpa, hpc⟩ := allPlain_split hp
  obtain ⟨t, ht, ht1, ht2⟩ := reply_type hu
  have hdue : Due (process cfg e m).ctx t :=
    (c58_downlink h ht1 ht2).mpr (Or.inl ⟨c, by rw [hc]; simp, ht⟩)
  refine mem_answers hu ht hdue ?_ ?_
  · intro hv
    have hmem : c ∈ parseCommands cfg.v11 msg.commands := by
      show c ∈ cmds cfg msg
      rw [hc]; simp
    rw [hv] at hmem
    exact v11_only hmem
  · rw [(c61_obeyed h).1, hc, List.foldl_append, List.foldl_cons]
    have hna := fold_net m.ctx.region m.ctx.version (e.battery % 256) e.snr a (params m.ctx).retire hpa
    generalize a.foldl (obey m.ctx.region m.ctx.version (e.battery % 256) e.snr) (params m.ctx).retire = p at hna ⊢
    have hna : p.net = a.foldl (effect m.ctx.region) (params m.ctx).net := hna
    rw [← hna] at hu hpc
    have h0 := reply_content (v := m.ctx.version) hu hpc
    generalize obey m.ctx.region m.ctx.version (e.battery % 256) e.snr p c = q at h0 ⊢
    clear hc hdue hp
    induction b generalizing q with
    | nil => exact h0
    | cons d b ih =>
      exact ih (fun d hd => hlast d (List.mem_cons_of_mem _ hd)) _
        (content_keeps hu ht q d (by rw [← ht]; exact hlast d List.mem_cons_self) h0)

/-! ## C86: LinkADRReq -/

theorem stdMask_eq {r : Region} (en : Nat → Bool) (dr pw mask cntl nb : Nat) (h : definable r = false → cntl ≤ 4) :
    stdMask r en mask cntl = adrMask r en (.linkADR dr pw mask cntl nb) := by
  unfold stdMask adrMask
  cases hd : definable r with
  | true => rfl
  | false =>
    have hc := h hd
    simp only [Bool.false_eq_true, if_false]
    have h6 : ¬ cntl = 6 := by omega
    have h7 : ¬ cntl = 7 := by omega
    simp only [h6, h7, if_false]
    by_cases h3 : cntl ≤ 3
    · rw [if_pos h3]
      congr 1
      funext ch
      by_cases hch : ch / 16 = cntl
      · rw [if_pos hch, if_pos (by omega), show ch - 16 * cntl = ch % 16 by omega]
      · rw [if_neg hch, if_neg (by omega)]
    · have h4 : cntl = 4 := by omega
      subst h4
      rw [if_neg h3, if_pos rfl]
      congr 1
      funext ch
      by_cases hch : 64 ≤ ch ∧ ch < 72
      · rw [if_pos hch, if_pos (by omega)]
      · rw [if_neg hch, if_neg (by omega)]

theorem stdMasks_eq {r : Region} {blk : List DownCmd}
    (h : definable r = false → ∀ dr pw mask cntl nb, .linkADR dr pw mask cntl nb ∈ blk → cntl ≤ 4) (en : Nat → Bool) :
    stdMasks r en blk = adrMasks r en blk := by
  induction blk generalizing en with
  | nil => rfl
  | cons c blk ih =>
    have ih := fun en => ih (fun hd dr pw mask cntl nb hm => h hd dr pw mask cntl nb (List.mem_cons_of_mem _ hm)) en
    cases c
    case linkADR dr pw mask cntl nb =>
      have hm := stdMask_eq (r := r) en dr pw mask cntl nb (fun hd => h hd dr pw mask cntl nb List.mem_cons_self)
      simp only [stdMasks, adrMasks, ← hm]
      cases stdMask r en mask cntl with
      | none => rfl
      | some en' => exact ih en'
    all_goals exact ih en

theorem channels_lt {s : Session} {ch : Nat} (h : (chan s ch).isSome = true) : ch < 72 := by
  refine Decidable.byContradiction fun hc => ?_
  unfold chan at h
  split at h <;> (repeat rw [if_neg (by omega)] at h) <;> cases h

theorem effect_channels_lt {r : Region} {n : Net} (h : ∀ ch, (n.channels ch).isSome = true → ch < 72) (c : DownCmd) :
    ∀ ch, ((effect r n c).channels ch).isSome = true → ch < 72 := by
  intro ch hch
  cases c <;> simp only [effect] at hch
  case newChannel i f hi lo =>
    split at hch
    · next hc =>
      by_cases hi : ch = i
      · omega
      · simp only [if_neg hi] at hch; exact h ch hch
    · exact h ch hch
  all_goals first | exact h ch hch | (split at hch <;> exact h ch hch)

theorem fold_channels_lt {r : Region} (cs : List DownCmd) {n : Net} (h : ∀ ch, (n.channels ch).isSome = true → ch < 72) :
    ∀ ch, ((cs.foldl (effect r) n).channels ch).isSome = true → ch < 72 := by
  induction cs generalizing n with
  | nil => exact h
  | cons c cs ih => exact ih (effect_channels_lt h c)

theorem acceptable_iff {r : Region} {channels : Nat → Option (Nat × Nat × Nat)} {en : Nat → Bool} {blk : List DownCmd}
    {dr pw nb : Nat} (hlt : ∀ ch, (channels ch).isSome = true → ch < 72) (h : PlainBlock r channels en blk dr nb) :
    adrAnswer r en blk dr pw = (true, true, true) ↔ Acceptable r channels en blk dr pw := by
  unfold adrAnswer Acceptable
  have hl := h.left
  have hrate := h.rate
  rw [← stdMasks_eq h.cntl]
  simp only [Prod.mk.injEq, decide_eq_true_eq]
  cases hm : stdMasks r en blk with
  | none => simp
  | some en' =>
    simp only [Option.some.injEq, exists_eq_left', List.any_eq_true, List.mem_range]
    constructor
    · rintro ⟨⟨ch, h1, h2⟩, h3, h4⟩
      have hno : ¬ ∀ ch < 72, en' ch = false := fun hc => by rw [hc ch h1] at h2; cases h2
      refine ⟨h.defined, (hl en' hm).resolve_left hno, ?_, h4⟩
      rcases h3 with h3 | h3
      · exact Or.inl h3
      · rcases hrate en' hm with h5 | h5 | h5 | h5
        · exact absurd h5 hno
        · exact Or.inl h5
        · exact absurd h3 h5
        · exact Or.inr ⟨h3, h5⟩
    · rintro ⟨_, ⟨ch, h1, h2⟩, h3, h4⟩
      exact ⟨⟨ch, hlt ch h2, h1⟩, h3.imp_right And.left, h4⟩

theorem adrBlock_of {pre blk post : List DownCmd} (hpre : ∀ c ∈ pre, isLinkADR c = false) (hblk : ∀ c ∈ blk, isLinkADR c = true)
    (hpost : ∀ c ∈ post, isLinkADR c = false) : adrBlock (pre ++ blk ++ post) = blk := by
  unfold adrBlock
  have h1 : ∀ l : List DownCmd, (∀ c ∈ l, isLinkADR c = false) → l.takeWhile isLinkADR = [] := by
    intro l hl
    cases l with
    | nil => rfl
    | cons c l => rw [List.takeWhile_cons, hl c List.mem_cons_self]; rfl
  have h2 : ∀ l : List DownCmd, (∀ c ∈ l, isLinkADR c = true) → (l ++ post).takeWhile isLinkADR = l := by
    intro l hl
    induction l with
    | nil => exact h1 post hpost
    | cons c l ih =>
      rw [List.cons_append, List.takeWhile_cons, hl c List.mem_cons_self, if_pos rfl,
        ih fun d hd => hl d (List.mem_cons_of_mem _ hd)]
  rw [List.append_assoc]
  induction pre with
  | nil =>
    rw [List.nil_append]
    cases blk with
    | nil =>
      have h3 : ∀ l : List DownCmd, (∀ c ∈ l, isLinkADR c = false) → l.dropWhile (fun c => !isLinkADR c) = [] := by
        intro l hl
        induction l with
        | nil => rfl
        | cons c l ih =>
          rw [List.dropWhile_cons, hl c List.mem_cons_self]
          exact ih fun d hd => hl d (List.mem_cons_of_mem _ hd)
      rw [List.nil_append, h3 post hpost]
      rfl
    | cons c blk =>
      rw [List.cons_append, List.dropWhile_cons, hblk c List.mem_cons_self]
      exact h2 (c :: blk) hblk
  | cons c pre ih =>
    rw [List.cons_append, List.dropWhile_cons, hpre c List.mem_cons_self]
    exact ih fun d hd => hpre d (List.mem_cons_of_mem _ hd)

/-- **C86**: a block of LinkADRReq is judged and applied as the standard says.  If all of it is acceptable the answer
says so and the rate, power, repetitions and channels it asks for are set; if not, the answer says so and nothing
changes.

Partial: one block in a downlink (`c86_second_block`), whose masks, rate and repetitions are `PlainBlock`
(`c86_fixed_masks`, `c86_undefined_channel`, `c86_rate_without_channel`, `c86_repetitions_cut`); one answer is
sent for the block, whatever its length (`c86_one_answer`); not for a downlink that ends with a truncated LinkADRReq
(`c44_truncated`). -/
theorem c86_link_adr_partial {cfg : Cfg} {m : Mac} {e : Env} {msg : DownMsg} (h : Gets cfg m e msg)
    {pre blk post : List DownCmd} {dr pw mask cntl nb : Nat}
    (hc : cmds cfg msg = pre ++ (blk ++ [.linkADR dr pw mask cntl nb]) ++ post)
    (hpre : ∀ c ∈ pre, isLinkADR c = false) (hblk : ∀ c ∈ blk, isLinkADR c = true) (hpost : ∀ c ∈ post, isLinkADR c = false)
    (hl : (leftover cfg.v11 msg.commands).head? ≠ some 3)
    (hp : PlainBlock m.ctx.region (pre.foldl (effect m.ctx.region) (params m.ctx).net).channels (adr m.ctx).enabled
      (blk ++ [.linkADR dr pw mask cntl nb]) dr nb) :
    let s := (process cfg e m).ctx
    let ok := Acceptable m.ctx.region (pre.foldl (effect m.ctx.region) (params m.ctx).net).channels (adr m.ctx).enabled
      (blk ++ [.linkADR dr pw mask cntl nb]) dr pw
    (∃ a b c, .linkADRAns a b c ∈ answers cfg.v11 s false false ∧ ((a = true ∧ b = true ∧ c = true) ↔ ok)) ∧
    (ok → adr s = stdApplied m.ctx.region (adr m.ctx) (blk ++ [.linkADR dr pw mask cntl nb]) dr pw nb) ∧
    (¬ ok → adr s = adr m.ctx) := by
  intro s ok
  have hb : adrBlock (cmds cfg msg) = blk ++ [.linkADR dr pw mask cntl nb] := by
    rw [hc]
    refine adrBlock_of hpre ?_ hpost
    intro c hm
    rcases List.mem_append.mp hm with hm | hm
    · exact hblk c hm
    · rw [List.mem_singleton.mp hm]; rfl
  obtain ⟨h1, h2, h3⟩ := (c44_all_or_nothing_partial h hl).2 _ _ _ _ _ _ hb
  have hlt := fold_channels_lt (r := m.ctx.region) pre (n := (params m.ctx).net) (fun ch hch => channels_lt hch)
  have hok := acceptable_iff (pw := pw) hlt hp
  rw [← h2, Prod.mk.injEq, Prod.mk.injEq] at hok
  rw [← h2] at h3
  simp only [Prod.mk.injEq] at h3
  refine ⟨⟨s.linkADRAns.powerOK, s.linkADRAns.dataRateOK, s.linkADRAns.channelMaskOK, ?_, ?_⟩, ?_, ?_⟩
  · unfold answers
    simp only [List.mem_append, or_assoc]
    simp [show Due s .linkADR from h1]
  · refine Iff.trans ?_ hok
    constructor
    · rintro ⟨a, b, c⟩; exact ⟨c, b, a⟩
    · rintro ⟨a, b, c⟩; exact ⟨c, b, a⟩
  · intro hk
    rw [show adr s = _ from h3, if_pos (hok.mpr hk)]
    unfold adrApplied stdApplied
    rw [stdMasks_eq hp.cntl, Nat.min_eq_right hp.repetitions]
  · intro hk
    rw [show adr s = _ from h3, if_neg (fun hc => hk (hok.mp hc))]

/-! ## Where the device departs from the standard -/

/-- RXTimingSetupReq with delay 0 asks for one second; the device sets 0. -/
theorem c61_delay_zero : Gets Demo.cfg listening (holding (carrying [8, 0]) 2600000) (bare [8, 0]) ∧
    ((cmds Demo.cfg (bare [8, 0])).foldl (effect .eu868) (params listening.ctx).net).rx1Delay = 1 ∧
    (params (obeyed [8, 0]).ctx).net.rx1Delay = 0 :=
  ⟨gets _ (by decide), by decide +kernel, by decide +kernel⟩

/-- RXParamSetupReq is not checked: offset 7, rate 15 and frequency 0 are acknowledged and set. -/
theorem c61_rx_param_unchecked : Gets Demo.cfg listening (holding (carrying [5, 0x7f, 0, 0, 0]) 2600000)
      (bare [5, 0x7f, 0, 0, 0]) ∧
    (cmds Demo.cfg (bare [5, 0x7f, 0, 0, 0])).map (reply .eu868 0 0 (params listening.ctx).net) =
      [some (.rxParamSetupAns false false false)] ∧
    answers false (obeyed [5, 0x7f, 0, 0, 0]).ctx false false = [.rxParamSetupAns true true true] ∧
    (params (obeyed [5, 0x7f, 0, 0, 0]).ctx).net.rx2Freq = 0 ∧ (params (obeyed [5, 0x7f, 0, 0, 0]).ctx).net.rx2Rate = 15 :=
  ⟨gets _ (by decide), by decide +kernel, by decide +kernel, by decide +kernel, by decide +kernel⟩

/-- NewChannelReq with frequency 0 removes a channel; the device refuses it and keeps the channel (here one that is
defined by the request before). -/
theorem c61_channel_not_removed :
    Gets Demo.cfg listening (holding (carrying [7, 3, 0x18, 0x4f, 0x84, 0x50, 7, 3, 0, 0, 0, 0x50]) 2600000)
      (bare [7, 3, 0x18, 0x4f, 0x84, 0x50, 7, 3, 0, 0, 0, 0x50]) ∧
    ((cmds Demo.cfg (bare [7, 3, 0x18, 0x4f, 0x84, 0x50, 7, 3, 0, 0, 0, 0x50])).foldl (effect .eu868)
      (params listening.ctx).net).channels 3 = none ∧
    chan (obeyed [7, 3, 0x18, 0x4f, 0x84, 0x50, 7, 3, 0, 0, 0, 0x50]).ctx 3 = some (867100000, 0, 5) ∧
    answers false (obeyed [7, 3, 0x18, 0x4f, 0x84, 0x50, 7, 3, 0, 0, 0, 0x50]).ctx false false = [.newChannelAns true false] :=
  ⟨gets _ (by decide), by decide +kernel, by decide +kernel, by decide +kernel⟩

/-- DlChannelReq is acknowledged and not applied: downlinks of channel 0 would go to 869.525 MHz and the device listens
at 868.1 MHz.  The same answer is given for a channel that is not defined. -/
theorem c61_dl_channel : Gets Demo.cfg listening (holding (carrying [10, 0, 0xd2, 0xad, 0x84]) 2600000)
      (bare [10, 0, 0xd2, 0xad, 0x84]) ∧
    ((cmds Demo.cfg (bare [10, 0, 0xd2, 0xad, 0x84])).foldl (effect .eu868) (params listening.ctx).net).down 0 =
      some 869525000 ∧
    (params (obeyed [10, 0, 0xd2, 0xad, 0x84]).ctx).net.down 0 = some 868100000 ∧
    answers false (obeyed [10, 0, 0xd2, 0xad, 0x84]).ctx false false = [.dlChannelAns true true] ∧
    (params listening.ctx).net.channels 9 = none ∧
    Gets Demo.cfg listening (holding (carrying [10, 9, 0xd2, 0xad, 0x84]) 2600000) (bare [10, 9, 0xd2, 0xad, 0x84]) ∧
    answers false (obeyed [10, 9, 0xd2, 0xad, 0x84]).ctx false false = [.dlChannelAns true true] :=
  ⟨gets _ (by decide), by decide +kernel, by decide +kernel, by decide +kernel, by decide +kernel, gets _ (by decide),
    by decide +kernel⟩

/-- Two requests of one kind get one answer, that of the second: here a channel is refused and another is defined. -/
theorem c61_one_answer :
    Gets Demo.cfg listening (holding (carrying [7, 3, 1, 0, 0, 0x50, 7, 4, 0x18, 0x4f, 0x84, 0x50]) 2600000)
      (bare [7, 3, 1, 0, 0, 0x50, 7, 4, 0x18, 0x4f, 0x84, 0x50]) ∧
    (cmds Demo.cfg (bare [7, 3, 1, 0, 0, 0x50, 7, 4, 0x18, 0x4f, 0x84, 0x50])).map
      (reply .eu868 0 0 (params listening.ctx).net) = [some (.newChannelAns true false), some (.newChannelAns true true)] ∧
    answers false (obeyed [7, 3, 1, 0, 0, 0x50, 7, 4, 0x18, 0x4f, 0x84, 0x50]).ctx false false = [.newChannelAns true true] :=
  ⟨gets _ (by decide), by decide +kernel, by decide +kernel⟩

/-- A case of C61: duty cycle, receive windows (offset 2, rate 3 at 869.525 MHz), delay 5 s, and a status request. -/
example : ((params (obeyed [4, 2, 5, 0x23, 0xd2, 0xad, 0x84, 8, 5, 6]).ctx).net.maxDutyCycle,
      (params (obeyed [4, 2, 5, 0x23, 0xd2, 0xad, 0x84, 8, 5, 6]).ctx).net.rx1Offset,
      (params (obeyed [4, 2, 5, 0x23, 0xd2, 0xad, 0x84, 8, 5, 6]).ctx).net.rx2Rate,
      (params (obeyed [4, 2, 5, 0x23, 0xd2, 0xad, 0x84, 8, 5, 6]).ctx).net.rx1Delay) = (2, 2, 3, 5) := by
  have h : (params (obeyed [4, 2, 5, 0x23, 0xd2, 0xad, 0x84, 8, 5, 6]).ctx).net = _ :=
    c61_standard_partial (gets [4, 2, 5, 0x23, 0xd2, 0xad, 0x84, 8, 5, 6] (by decide))
      ⟨trivial, ⟨by decide +kernel, by decide +kernel, by decide +kernel⟩, (by decide : 5 ≠ 0), trivial, trivial⟩
  rw [h]
  decide +kernel

/-- A case of the answers of C61: a channel is refused for its frequency, and the status request before it answered. -/
example : .newChannelAns true false ∈ answers false (obeyed [6, 7, 3, 1, 0, 0, 0x50]).ctx false false := by
  have hc : cmds Demo.cfg (bare [6, 7, 3, 1, 0, 0, 0x50]) = [.devStatus] ++ .newChannel 3 100 5 0 :: [] := by decide +kernel
  refine c61_answered_partial (gets [6, 7, 3, 1, 0, 0, 0x50] (by decide)) ?_ hc (by simp) ?_
  · rw [hc]
    exact ⟨trivial, fun _ => ⟨by decide +kernel, by decide, Or.inl (by decide)⟩, trivial⟩
  · decide +kernel

theorem net_channels (s : Session) : (params s).net.channels = chan s := rfl

/-- A case of C86: rate 5, power 2, two repetitions, channels 0 and 1. -/
example : ((adr (obeyed [3, 0x52, 3, 0, 2]).ctx).rate, (adr (obeyed [3, 0x52, 3, 0, 2]).ctx).power,
      (adr (obeyed [3, 0x52, 3, 0, 2]).ctx).nbTrans, (adr (obeyed [3, 0x52, 3, 0, 2]).ctx).enabled 1,
      (adr (obeyed [3, 0x52, 3, 0, 2]).ctx).enabled 2) = (5, 2, 2, true, false) := by
  have hc : cmds Demo.cfg (bare [3, 0x52, 3, 0, 2]) = [] ++ ([] ++ [.linkADR 5 2 3 0 2]) ++ [] := by decide +kernel
  have hch : ∀ ch < 16, (3 : Nat).testBit ch = true → (chan listening.ctx ch).isSome = true := by decide +kernel
  have h0 : (params listening.ctx).net.channels 0 = some (868100000, 0, 5) := by decide +kernel
  have h0' : ((params listening.ctx).net.channels 0).isSome = true := by rw [h0]; rfl
  have hu : ¬ EnablesUndefined listening.ctx.region (params listening.ctx).net.channels [.linkADR 5 2 3 0 2] := by
    rintro ⟨_, dr, pw, mask, nb, ch, h1, h2, h3, h4⟩
    cases h1 with
    | head =>
      have := hch ch h2 h3
      rw [net_channels] at h4
      rw [h4] at this
      cases this
    | tail _ h1 => cases h1
  have hr : listening.ctx.region = .eu868 := by decide +kernel
  have hm : ∀ en', stdMasks listening.ctx.region (adr listening.ctx).enabled [.linkADR 5 2 3 0 2] = some en' → en' 0 = true := by
    rw [hr]
    intro en' h
    cases h
    rfl
  obtain ⟨_, h2, _⟩ := c86_link_adr_partial (gets [3, 0x52, 3, 0, 2] (by decide)) hc (by simp) (by simp) (by simp) (by decide)
    { cntl := fun hd => by rw [hr] at hd; cases hd
      defined := hu
      left := fun en' h => Or.inr ⟨0, hm en' h, h0'⟩
      rate := fun en' h => Or.inr (Or.inr (Or.inr ⟨0, 868100000, 0, 5, hm en' h, h0, by decide, by decide⟩))
      repetitions := by decide }
  have h2 : adr (obeyed [3, 0x52, 3, 0, 2]).ctx = _ := h2 (by
    cases hs : stdMasks listening.ctx.region (adr listening.ctx).enabled [.linkADR 5 2 3 0 2] with
    | none => rw [hr] at hs; cases hs
    | some en' =>
      exact ⟨en', hs, hu, ⟨0, hm en' hs, h0'⟩,
        Or.inr ⟨by rw [hr]; decide, 0, 868100000, 0, 5, hm en' hs, h0, by decide, by decide⟩, Or.inr (by rw [hr]; decide)⟩)
  rw [h2]
  decide +kernel

/-- In regions with a fixed plan: ChMaskCntl 7 with an empty mask disables all channels and is to be refused (the device
keeps the 500 kHz channels and accepts); ChMaskCntl 5 is to select banks of channels (the device accepts it and changes
nothing). -/
theorem c86_fixed_masks :
    Gets Demo.cfg usListening (usCarrying [3, 0x42, 0, 0, 0x71]) (bare [3, 0x42, 0, 0, 0x71]) ∧
    (∀ ch, ¬ ∃ en', stdMasks .us915 (adr usListening.ctx).enabled (cmds Demo.cfg (bare [3, 0x42, 0, 0, 0x71])) = some en' ∧
      ch < 72 ∧ en' ch = true) ∧
    answers false (process Demo.cfg (usCarrying [3, 0x42, 0, 0, 0x71]) usListening).ctx false false =
      [.linkADRAns true true true] ∧
    (adr (process Demo.cfg (usCarrying [3, 0x42, 0, 0, 0x71]) usListening).ctx).enabled 64 = true ∧
    Gets Demo.cfg usListening (usCarrying [3, 0x22, 2, 0, 0x51]) (bare [3, 0x22, 2, 0, 0x51]) ∧
    ((stdMasks .us915 (adr usListening.ctx).enabled (cmds Demo.cfg (bare [3, 0x22, 2, 0, 0x51]))).map
      fun en' => (en' 0, en' 8, en' 64, en' 65)) = some (false, true, false, true) ∧
    answers false (process Demo.cfg (usCarrying [3, 0x22, 2, 0, 0x51]) usListening).ctx false false =
      [.linkADRAns true true true] ∧
    (adr (process Demo.cfg (usCarrying [3, 0x22, 2, 0, 0x51]) usListening).ctx).enabled 0 = true := by
  refine ⟨?_, ?_, by decide +kernel, by decide +kernel, ?_, by decide +kernel, by decide +kernel, by decide +kernel⟩
  · exact { cipher := fun _ _ h => h, reachable := usListening_reachable, keys := .of_10 rfl _, receiving := by decide +kernel
            op := by decide +kernel, length := by decide +kernel
            authentic := by unfold Delivered; decide +kernel }
  · rintro ch ⟨en', h1, h2, h3⟩
    have hall : ∀ ch < 72, ((stdMasks .us915 (adr usListening.ctx).enabled (cmds Demo.cfg (bare [3, 0x42, 0, 0, 0x71]))).map
        fun en' => en' ch) = some false := by decide +kernel
    have := hall ch h2
    rw [h1, Option.map_some, h3] at this
    cases this
  · exact { cipher := fun _ _ h => h, reachable := usListening_reachable, keys := .of_10 rfl _, receiving := by decide +kernel
            op := by decide +kernel, length := by decide +kernel
            authentic := by unfold Delivered; decide +kernel }

/-- A mask that enables a channel that is not defined is accepted. -/
theorem c86_undefined_channel : Gets Demo.cfg listening (holding (carrying [3, 0x52, 0xff, 0, 1]) 2600000)
      (bare [3, 0x52, 0xff, 0, 1]) ∧
    EnablesUndefined .eu868 (params listening.ctx).net.channels (cmds Demo.cfg (bare [3, 0x52, 0xff, 0, 1])) ∧
    answers false (obeyed [3, 0x52, 0xff, 0, 1]).ctx false false = [.linkADRAns true true true] :=
  ⟨gets _ (by decide), ⟨rfl, 5, 2, 255, 1, 7, by decide +kernel, by decide, by decide, by decide +kernel⟩, by decide +kernel⟩

/-- A rate that no enabled channel allows is accepted: here channel 3 is defined for rate 0 only and left alone. -/
theorem c86_rate_without_channel :
    Gets Demo.cfg listening (holding (carrying [7, 3, 0x18, 0x4f, 0x84, 0, 3, 0x52, 8, 0, 1]) 2600000)
      (bare [7, 3, 0x18, 0x4f, 0x84, 0, 3, 0x52, 8, 0, 1]) ∧
    (let s := (obeyed [7, 3, 0x18, 0x4f, 0x84, 0, 3, 0x52, 8, 0, 1]).ctx
     answers false s false false = [.linkADRAns true true true, .newChannelAns true true] ∧
     (adr s).rate = 5 ∧ (∀ ch < 72, (adr s).enabled ch = true → (chan s ch).isSome = true → ch = 3) ∧
     chan s 3 = some (867100000, 0, 0)) :=
  ⟨gets _ (by decide), by decide +kernel, by decide +kernel, by decide +kernel, by decide +kernel⟩

/-- More than three repetitions are acknowledged, and three are made. -/
theorem c86_repetitions_cut : Gets Demo.cfg listening (holding (carrying [3, 0x52, 7, 0, 15]) 2600000) (bare [3, 0x52, 7, 0, 15]) ∧
    answers false (obeyed [3, 0x52, 7, 0, 15]).ctx false false = [.linkADRAns true true true] ∧
    (adr (obeyed [3, 0x52, 7, 0, 15]).ctx).nbTrans = 3 :=
  ⟨gets _ (by decide), by decide +kernel, by decide +kernel⟩

/-- A block of two requests gets one answer, where the standard has one for each. -/
theorem c86_one_answer : Gets Demo.cfg listening (holding (carrying [3, 0x52, 7, 0, 1, 3, 0x52, 3, 0, 1]) 2600000)
      (bare [3, 0x52, 7, 0, 1, 3, 0x52, 3, 0, 1]) ∧
    (cmds Demo.cfg (bare [3, 0x52, 7, 0, 1, 3, 0x52, 3, 0, 1])).length = 2 ∧
    answers false (obeyed [3, 0x52, 7, 0, 1, 3, 0x52, 3, 0, 1]).ctx false false = [.linkADRAns true true true] :=
  ⟨gets _ (by decide), by decide +kernel, by decide +kernel⟩

/-- Of two blocks the second has no effect and no answer: rate 5 stays although the last request asks for 2. -/
theorem c86_second_block : Gets Demo.cfg listening (holding (carrying [3, 0x52, 7, 0, 1, 6, 3, 0x22, 7, 0, 1]) 2600000)
      (bare [3, 0x52, 7, 0, 1, 6, 3, 0x22, 7, 0, 1]) ∧
    (cmds Demo.cfg (bare [3, 0x52, 7, 0, 1, 6, 3, 0x22, 7, 0, 1])).getLast? = some (.linkADR 2 2 7 0 1) ∧
    (adr (obeyed [3, 0x52, 7, 0, 1, 6, 3, 0x22, 7, 0, 1]).ctx).rate = 5 :=
  ⟨gets _ (by decide), by decide +kernel, by decide +kernel⟩

end LDL
