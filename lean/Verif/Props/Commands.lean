import Verif.Lemmas.Effects
import Verif.Lemmas.Anchor
import Verif.Props.Downlink

/-!
# C44, C45, C49, C54, C55, C61: MAC commands of the network

`Gets cfg m e msg` says that the call to `process` in state `m` with environment `e` takes the data downlink `msg`
(decrypted) from the radio.  Its commands are `parseCommands cfg.v11 msg.commands`, by the specification's parser.
-/

namespace LDL
open Spec Frame

/-- A data downlink is received. -/
structure Gets (cfg : Cfg) (m : Mac) (e : Env) (msg : DownMsg) : Prop where
  cipher : ∀ k, BlockFn (cfg.E k)
  reachable : Reachable cfg m
  keys : KeysOk cfg m
  receiving : Receiving m e
  op : DataOp m
  /-- See C12: the MIC of such frames is not computed correctly. -/
  length : e.received.length ≠ 244
  authentic : Delivered cfg m e msg

/-- The commands of a message. -/
def cmds (cfg : Cfg) (msg : DownMsg) : List DownCmd := parseCommands cfg.v11 msg.commands

theorem params_bad (s : Session) (k : Nat → Nat) (r p n : Nat) :
    params { s with chMask := k, rate := r, power := p, nbTrans := n } = params s := rfl

theorem same_bad (s : Session) (k : Nat → Nat) (r p n : Nat) :
    SameSession s { s with chMask := k, rate := r, power := p, nbTrans := n } := by constructor <;> rfl

theorem processCommands_params (cfg : Cfg) (e : Env) (m : Mac) (bs : Bytes) (h8 : bs.length ≤ 255) :
    params (processCommands cfg e m bs).ctx =
        (parseCommands cfg.v11 bs).foldl (obey m.ctx.region m.ctx.version (u8 e.battery) m.rxSnr) (params m.ctx) ∧
      SameSession m.ctx (processCommands cfg e m bs).ctx ∧
      (processCommands cfg e m bs).out =
        m.out ++ (parseCommands cfg.v11 bs).flatMap (told (timerDelta m.ticksAtTx e.later) cfg.tps) := by
  rw [processCommands_run cfg e m bs h8]
  simp only []
  obtain ⟨h1, h2, h3⟩ := runCommands_params cfg e ((leftover cfg.v11 bs).head? == some 3) (parseCommands cfg.v11 bs)
    { m with ctx := { m.ctx with linkADRAns := { m.ctx.linkADRAns with channelMaskOK := true } } } .noAdr
    (parseCommands_wf cfg.v11 bs)
  generalize runCommands cfg e _ _ _ _ = r at h1 h2 h3
  have hs : SameSession m.ctx { m.ctx with linkADRAns := { m.ctx.linkADRAns with channelMaskOK := true } } := by
    constructor <;> rfl
  split
  · exact ⟨(params_bad ..).trans h1, (hs.trans h2).trans (same_bad ..), h3⟩
  · exact ⟨h1, hs.trans h2, h3⟩

/-! ## C61: commands take effect as specified -/

/-- **C61**: after a downlink, the parameters of the session other than those of LinkADRReq, the answers due and their
contents are those obtained by obeying its commands one after the other (`obey`), and the identity, counters and
nonces of the session are as before. -/
theorem c61_obeyed {cfg : Cfg} {m : Mac} {e : Env} {msg : DownMsg} (h : Gets cfg m e msg) :
    params (process cfg e m).ctx =
        (cmds cfg msg).foldl (obey m.ctx.region m.ctx.version (e.battery % 256) e.snr) (params m.ctx).retire ∧
      SameSession m.ctx (process cfg e m).ctx := by
  obtain ⟨y, pre, h1, h2, _, h4, _, _, _, h8, h9, _⟩ := effects h.cipher h.reachable h.keys h.receiving h.op h.length h.authentic
  rw [h9]
  unfold cmds
  by_cases hc : msg.commands = []
  · rw [if_pos hc, hc]
    exact ⟨h1, h2⟩
  · rw [if_neg hc]
    obtain ⟨p1, p2, _⟩ := processCommands_params cfg e y msg.commands h8
    rw [p1, h1, h2.region, h2.version, h4]
    exact ⟨rfl, h2.trans p2⟩

/-- **C61**, what the application is told, in order: after the radio has been read, the results of link checks and
the network time, the application payload, the end of the operation, and the session to store. -/
theorem c61_reports {cfg : Cfg} {m : Mac} {e : Env} {msg : DownMsg} (h : Gets cfg m e msg) :
    ∃ pre, (pre = [.getStatus, .readBuffer, .setMode .sleep] ∨
        pre = [.channelReady, .getStatus, .readBuffer, .setMode .sleep]) ∧
      newEvents m (process cfg e m) = pre ++
        Spec.reports (timerDelta m.ticksAtTx e.later) cfg.tps (cmds cfg msg) msg m.op (process cfg e m).ctx := by
  obtain ⟨y, pre, _, _, _, _, h5, h6, h7, h8, _, h10⟩ :=
    effects h.cipher h.reachable h.keys h.receiving h.op h.length h.authentic
  refine ⟨pre, h7, ?_⟩
  have hout : (if msg.commands = [] then y else processCommands cfg e y msg.commands).out =
      m.out ++ pre ++ (cmds cfg msg).flatMap (told (timerDelta m.ticksAtTx e.later) cfg.tps) := by
    unfold cmds
    split
    · next hc => rw [hc, h6]; simp [parseCommands, parseCommandsAux]
    · rw [(processCommands_params cfg e y msg.commands h8).2.2, h5, h6]
  unfold newEvents
  rw [h10, hout]
  unfold Spec.reports
  simp only [List.append_assoc]
  rw [List.drop_left]

theorem adr_congr {s t : Session} (h1 : s.chMask = t.chMask) (h2 : s.rate = t.rate) (h3 : s.power = t.power)
    (h4 : s.nbTrans = t.nbTrans) : adr s = adr t := by
  have he : (adr s).enabled = (adr t).enabled := by rw [adr_enabled, adr_enabled, h1]
  show ({ rate := s.rate, power := s.power, nbTrans := s.nbTrans, enabled := (adr s).enabled } : Adr) = _
  rw [he, h2, h3, h4]
  rfl

/-! ## C44: LinkADRReq is all or nothing -/

theorem processCommands_adr {cfg : Cfg} (e : Env) (m : Mac) (bs : Bytes) (h8 : bs.length ≤ 255)
    (hd : ¬ Due m.ctx .linkADR) (hm : ∀ i, m.ctx.chMask i < 256) (hl : (leftover cfg.v11 bs).head? ≠ some 3) :
    (adrBlock (parseCommands cfg.v11 bs) = [] →
      adr (processCommands cfg e m bs).ctx = adr m.ctx ∧ ¬ Due (processCommands cfg e m bs).ctx .linkADR) ∧
    (∀ blk dr pw mask cntl nb, adrBlock (parseCommands cfg.v11 bs) = blk ++ [.linkADR dr pw mask cntl nb] →
      let ans := adrAnswer m.ctx.region (adr m.ctx).enabled (blk ++ [.linkADR dr pw mask cntl nb]) dr pw
      Due (processCommands cfg e m bs).ctx .linkADR ∧
      ((processCommands cfg e m bs).ctx.linkADRAns.channelMaskOK, (processCommands cfg e m bs).ctx.linkADRAns.dataRateOK,
        (processCommands cfg e m bs).ctx.linkADRAns.powerOK) = ans ∧
      adr (processCommands cfg e m bs).ctx =
        if ans = (true, true, true) then adrApplied m.ctx.region (adr m.ctx) (blk ++ [.linkADR dr pw mask cntl nb]) dr pw nb
        else adr m.ctx) := by
  have ht : ((leftover cfg.v11 bs).head? == some 3) = false := by
    apply Bool.eq_false_iff.mpr
    intro hc
    exact hl (by simpa using hc)
  obtain ⟨pre, post, hcs, hpre, hblk, hpost⟩ := adrBlock_split (parseCommands cfg.v11 bs)
  have hwf := parseCommands_wf cfg.v11 bs
  rw [processCommands_run cfg e m bs h8, ht]
  simp only []
  generalize hcs' : parseCommands cfg.v11 bs = cs at *
  generalize hy : ({ m with ctx := { m.ctx with linkADRAns := { m.ctx.linkADRAns with channelMaskOK := true } } } : Mac) = y
  have hyr : y.ctx.region = m.ctx.region := by rw [← hy]
  have hya : adrPart y.ctx = (m.ctx.chMask, m.ctx.rate, m.ctx.power, m.ctx.nbTrans,
      { m.ctx.linkADRAns with channelMaskOK := true }, decide (Due m.ctx .linkADR)) := by rw [← hy]; rfl
  clear hy
  have hp := runCommands_pre (cfg := cfg) e false pre (adrBlock cs ++ post) hpre y .noAdr
  rw [← List.append_assoc, ← hcs] at hp
  obtain ⟨z, hz1, hz2, hz3⟩ := hp
  rw [hz1]
  have hza := hz2.trans hya
  unfold adrPart at hza
  simp only [Prod.mk.injEq, decide_eq_decide] at hza
  obtain ⟨a1, a2, a3, a4, a5, a6⟩ := hza
  have hnd : ¬ Due z.ctx .linkADR := fun hc => hd (a6.mp hc)
  constructor
  · intro hb
    have hcs0 := hcs
    rw [hb]
    rw [hb] at hcs
    have hnone : ∀ c ∈ post, isADR c = false := by
      intro c hc
      -- no block, so no LinkADRReq at all
      have : ∀ l : List DownCmd, adrBlock l = [] → ∀ c ∈ l, isADR c = false := by
        intro l
        induction l with
        | nil => intro _ c hc; cases hc
        | cons d l ih =>
          intro hbl c hc
          cases hdl : isLinkADR d with
          | true =>
            unfold adrBlock at hbl
            rw [List.dropWhile_cons, if_neg (by simp [hdl]), List.takeWhile_cons, if_pos hdl] at hbl
            cases hbl
          | false =>
            have : adrBlock (d :: l) = adrBlock l := by
              unfold adrBlock
              rw [List.dropWhile_cons, if_pos (by simp [hdl])]
            rcases List.mem_cons.mp hc with rfl | hc
            · exact hdl
            · exact ih (this ▸ hbl) c hc
      exact this cs hb c (by rw [hcs]; simp [hc])
    obtain ⟨w, hw1, hw2, hw3⟩ := runCommands_pre (cfg := cfg) e false post [] hnone z .noAdr
    rw [List.append_nil] at hw1
    rw [List.nil_append, hw1]
    have hrw : runCommands cfg e false [] w .noAdr = (w, .noAdr) := rfl
    rw [hrw]
    have hif : ¬ (AdrState.noAdr = AdrState.bad) := by decide
    simp only [hif, if_false]
    unfold adrPart at hw2
    simp only [Prod.mk.injEq, decide_eq_decide] at hw2
    obtain ⟨b1, b2, b3, b4, b5, b6⟩ := hw2
    refine ⟨?_, fun hc => hnd (b6.mp hc)⟩
    exact adr_congr (b1.trans a1) (b2.trans a2) (b3.trans a3) (b4.trans a4)
  · intro blk dr pw mask cntl nb hb
    have hmem : DownCmd.linkADR dr pw mask cntl nb ∈ cs := by rw [hcs, hb]; simp
    obtain ⟨w1, w2, _, _, w5⟩ := hwf _ hmem
    have hbk := runCommands_block (cfg := cfg) e false blk post dr pw mask cntl nb
      (fun c hc => hblk c (by rw [hb]; exact List.mem_append_left _ hc)) w1 w2 w5 (hpost false rfl) z .noAdr hnd
      (by rw [a1]; exact hm)
    rw [hb]
    have henz : (adr z.ctx).enabled = (adr m.ctx).enabled := by rw [adr_enabled, adr_enabled, a1]
    have hadz : adr z.ctx = adr m.ctx := adr_congr a1 a2 a3 a4
    rw [hz3, hyr, henz, hadz, a5] at hbk
    simp only [Bool.true_and] at hbk ⊢
    generalize hans : adrAnswer m.ctx.region (adr m.ctx).enabled (blk ++ [.linkADR dr pw mask cntl nb]) dr pw = ans at hbk ⊢
    obtain ⟨w, hw1, hw2, hw3, hw4, hw5, hw6⟩ := hbk
    rw [hw1]
    obtain ⟨p1, p2⟩ := runCommands_post (cfg := cfg) e false post w (if (ans.1 && ans.2.1 && ans.2.2) = true then .ok else .bad) hw2
    generalize runCommands cfg e false post w _ = r at p1 p2
    unfold adrPart at p1
    simp only [Prod.mk.injEq, decide_eq_decide] at p1
    obtain ⟨c1, c2, c3, c4, c5, c6⟩ := p1
    have hdue := c6.mpr hw2
    have hadr : adr r.1.ctx = adr w.ctx := adr_congr c1 c2 c3 c4
    obtain ⟨x1, x2, x3⟩ := ans
    simp only [] at hw3 hw4 hw5 hw6 p2
    by_cases hok : (x1 && x2 && x3) = true
    · have hx : (x1, x2, x3) = (true, true, true) := by
        simp only [Bool.and_eq_true] at hok
        rw [hok.1.1, hok.1.2, hok.2]
      rw [if_pos hok] at p2
      rw [if_neg (by rw [p2]; decide), if_pos hx]
      exact ⟨hdue, by rw [c5, hw3, hw4, hw5], hadr.trans (hw6 hok)⟩
    · have hx : ¬ (x1, x2, x3) = (true, true, true) := by
        intro hc
        simp only [Prod.mk.injEq] at hc
        exact hok (by rw [hc.1, hc.2.1, hc.2.2]; rfl)
      rw [if_neg hok] at p2
      rw [if_pos p2, if_neg hx]
      refine ⟨hdue, ?_, rfl⟩
      show (r.1.ctx.linkADRAns.channelMaskOK, r.1.ctx.linkADRAns.dataRateOK, r.1.ctx.linkADRAns.powerOK) = _
      rw [c5, hw3, hw4, hw5]

/-- **C44**: the first block of LinkADRReq in a downlink either takes effect completely (`adrApplied`), all three
answer bits being set, or changes nothing, one of the bits being clear.  The bits are set when the mask, rate and power
are acceptable (`adrAnswer`).  Without LinkADRReq nothing changes.

Partial: not for a downlink that ends with a truncated LinkADRReq (`c44_truncated`). -/
theorem c44_all_or_nothing_partial {cfg : Cfg} {m : Mac} {e : Env} {msg : DownMsg} (h : Gets cfg m e msg)
    (hl : (leftover cfg.v11 msg.commands).head? ≠ some 3) :
    (adrBlock (cmds cfg msg) = [] →
      adr (process cfg e m).ctx = adr m.ctx ∧ ¬ Due (process cfg e m).ctx .linkADR) ∧
    (∀ blk dr pw mask cntl nb, adrBlock (cmds cfg msg) = blk ++ [.linkADR dr pw mask cntl nb] →
      let ans := adrAnswer m.ctx.region (adr m.ctx).enabled (blk ++ [.linkADR dr pw mask cntl nb]) dr pw
      let s := (process cfg e m).ctx
      Due s .linkADR ∧ (s.linkADRAns.channelMaskOK, s.linkADRAns.dataRateOK, s.linkADRAns.powerOK) = ans ∧
      adr s = if ans = (true, true, true) then
          adrApplied m.ctx.region (adr m.ctx) (blk ++ [.linkADR dr pw mask cntl nb]) dr pw nb
        else adr m.ctx) := by
  obtain ⟨y, pre, _, h2, h3, _, _, _, _, h8, h9, _⟩ := effects h.cipher h.reachable h.keys h.receiving h.op h.length h.authentic
  have hin := h.reachable.inData h.op
  have hsing : CmdType.linkADR ∈ singles cfg.v11 := by cases cfg.v11 <;> decide
  have hnd := hin.singles _ hsing
  unfold adrPart at h3
  simp only [Prod.mk.injEq, decide_eq_decide] at h3
  obtain ⟨a1, a2, a3, a4, a5, a6⟩ := h3
  have hady : adr y.ctx = adr m.ctx := adr_congr a1 a2 a3 a4
  have hndy : ¬ Due y.ctx .linkADR := fun hc => hnd (a6.mp hc)
  rw [h9]
  by_cases hc : msg.commands = []
  · rw [if_pos hc]
    have : cmds cfg msg = [] := by unfold cmds; rw [hc]; rfl
    rw [this]
    refine ⟨fun _ => ⟨hady, hndy⟩, ?_⟩
    intro blk dr pw mask cntl nb hb
    have hb' : ([] : List DownCmd) = blk ++ [.linkADR dr pw mask cntl nb] := hb
    simp at hb'
  · rw [if_neg hc]
    have := processCommands_adr (cfg := cfg) e y msg.commands h8 hndy (by rw [a1]; exact h.reachable.sessionOk.mask) hl
    rw [hady, h2.region] at this
    exact this


/-! ## C45: channels left -/

theorem adrBlock_last (cs : List DownCmd) : adrBlock cs = [] ∨
    ∃ blk dr pw mask cntl nb, adrBlock cs = blk ++ [.linkADR dr pw mask cntl nb] := by
  rcases List.eq_nil_or_concat (adrBlock cs) with h | ⟨blk, c, h⟩
  · exact Or.inl h
  · obtain ⟨_, _, _, _, hb, _⟩ := adrBlock_split cs
    have hc : isADR c = true := hb c (by rw [h]; simp)
    cases c <;> first | (cases hc; done) | exact Or.inr ⟨blk, _, _, _, _, _, by simpa using h⟩

/-- **C45**: if some channel is enabled before a downlink, some channel is enabled after.

Partial: not for a downlink that ends with a truncated LinkADRReq (`c45_truncated`); and "channel" is any of the 72
whose mask bit is kept, so that in the regions with 16 channels all of them can be disabled (`c45_all_disabled`). -/
theorem c45_some_channel_partial {cfg : Cfg} {m : Mac} {e : Env} {msg : DownMsg} (h : Gets cfg m e msg)
    (hl : (leftover cfg.v11 msg.commands).head? ≠ some 3) (h0 : ∃ ch, (adr m.ctx).enabled ch = true) :
    ∃ ch, (adr (process cfg e m).ctx).enabled ch = true := by
  obtain ⟨c1, c2⟩ := c44_all_or_nothing_partial h hl
  rcases adrBlock_last (cmds cfg msg) with hb | ⟨blk, dr, pw, mask, cntl, nb, hb⟩
  · rw [(c1 hb).1]; exact h0
  · obtain ⟨_, _, h3⟩ := c2 _ _ _ _ _ _ hb
    rw [h3]
    split
    · next ha =>
      unfold adrAnswer at ha
      simp only [Prod.mk.injEq] at ha
      have h1 := ha.1
      show ∃ ch, (adrMasks m.ctx.region (adr m.ctx).enabled (blk ++ [.linkADR dr pw mask cntl nb])).getD _ ch = true
      cases hm : adrMasks m.ctx.region (adr m.ctx).enabled (blk ++ [.linkADR dr pw mask cntl nb]) with
      | none => rw [hm] at h1; cases h1
      | some en =>
        rw [hm] at h1
        obtain ⟨ch, _, hch⟩ := List.any_eq_true.mp h1
        exact ⟨ch, hch⟩
    · exact h0

/-- In the regions with a fixed plan the channels are those 72. -/
theorem c45_fixed_plan {cfg : Cfg} {m : Mac} {e : Env} {msg : DownMsg} (h : Gets cfg m e msg)
    (hl : (leftover cfg.v11 msg.commands).head? ≠ some 3) (h0 : ∃ ch < 72, ¬ Masked m.ctx ch) :
    ∃ ch < 72, ¬ Masked (process cfg e m).ctx ch := by
  obtain ⟨ch, h1, h2⟩ := h0
  obtain ⟨ch', h'⟩ := c45_some_channel_partial h hl ⟨ch, decide_eq_true ⟨h1, h2⟩⟩
  exact ⟨ch', of_decide_eq_true h'⟩

/-! ## C49: device status -/

theorem margin_range (snr : Int) : -32 ≤ margin snr ∧ margin snr ≤ 31 := by unfold margin; omega

theorem margin_id (snr : Int) (h : -32 ≤ snr ∧ snr ≤ 31) : margin snr = snr := by unfold margin; omega

theorem fold_keeps {α : Type} (f : Params → α) (r : Region) (v b : Nat) (snr : Int) (cs : List DownCmd)
    (h : ∀ c ∈ cs, ∀ p, f (obey r v b snr p c) = f p) (p : Params) : f (cs.foldl (obey r v b snr) p) = f p := by
  induction cs generalizing p with
  | nil => rfl
  | cons c cs ih =>
    rw [List.foldl_cons, ih (fun c hc => h c (List.mem_cons_of_mem _ hc)), h c (by simp)]

theorem obey_dev_status (r : Region) (v b : Nat) (snr : Int) (cs : List DownCmd) (h : .devStatus ∈ cs) (p : Params) :
    (cs.foldl (obey r v b snr) p).devStatusAns = (b, margin snr) ∧ (cs.foldl (obey r v b snr) p).due .devStatus = true := by
  have keep : ∀ (c : DownCmd) (p : Params), p.devStatusAns = (b, margin snr) ∧ p.due .devStatus = true →
      (obey r v b snr p c).devStatusAns = (b, margin snr) ∧ (obey r v b snr p c).due .devStatus = true := by
    intro c p hp
    cases c <;> simp only [obey] <;> (try split) <;> simp [Params.answer, hp]
  have keeps : ∀ (cs : List DownCmd) (p : Params), p.devStatusAns = (b, margin snr) ∧ p.due .devStatus = true →
      (cs.foldl (obey r v b snr) p).devStatusAns = (b, margin snr) ∧ (cs.foldl (obey r v b snr) p).due .devStatus = true := by
    intro cs
    induction cs with
    | nil => intro p h; exact h
    | cons c cs ih => intro p h; exact ih _ (keep c p h)
  induction cs generalizing p with
  | nil => cases h
  | cons c cs ih =>
    rcases List.mem_cons.mp h with rfl | h
    · exact keeps cs _ (by simp [obey, Params.answer])
    · exact ih h _

/-- **C49**: a DevStatusReq is answered with the battery level and the SNR of the downlink, clamped to -32..31. -/
theorem c49_dev_status {cfg : Cfg} {m : Mac} {e : Env} {msg : DownMsg} (h : Gets cfg m e msg)
    (hc : .devStatus ∈ cmds cfg msg) :
    Due (process cfg e m).ctx .devStatus ∧
      (process cfg e m).ctx.devStatusAns.battery = e.battery % 256 ∧
      (process cfg e m).ctx.devStatusAns.margin = max (-32) (min 31 e.snr) := by
  obtain ⟨h1, _⟩ := c61_obeyed h
  obtain ⟨h2, h3⟩ := obey_dev_status m.ctx.region m.ctx.version (e.battery % 256) e.snr _ hc (params m.ctx).retire
  rw [← h1] at h2 h3
  have h2' : ((process cfg e m).ctx.devStatusAns.battery, (process cfg e m).ctx.devStatusAns.margin) = _ := h2
  simp only [Prod.mk.injEq] at h2'
  have h3' : decide (Due (process cfg e m).ctx .devStatus ∧ CmdType.devStatus ≠ .linkADR) = true := h3
  exact ⟨(of_decide_eq_true h3').1, h2'.1, h2'.2⟩

/-- The margin of the answer as the six bits sent, read back as a two's complement number. -/
theorem c49_six_bits (snr : Int) :
    let b := (margin snr % 64).toNat
    b < 64 ∧ (if b < 32 then (b : Int) else (b : Int) - 64) = margin snr := by
  have := margin_range snr
  simp only []
  refine ⟨by omega, ?_⟩
  split <;> omega

/-- The octets of the answer. -/
theorem c49_encoded (b : Nat) (snr : Int) :
    encodeUp (.devStatusAns b (margin snr)) = [6, UInt8.ofNat b, UInt8.ofNat (margin snr % 64).toNat] := by
  simp [encodeUp]

/-! ## C54: new channels -/

/-- Every channel after a downlink is as before, or one given by a legal NewChannelReq of the downlink, in a region
that has them.  What is legal does not include that the lowest rate is at most the highest (`c54_inverted`). -/
theorem c54_legal_partial {cfg : Cfg} {m : Mac} {e : Env} {msg : DownMsg} (h : Gets cfg m e msg) (j : Nat) :
    chan (process cfg e m).ctx j = chan m.ctx j ∨
      ∃ f hi lo, .newChannel j f hi lo ∈ cmds cfg msg ∧ definable m.ctx.region = true ∧ j < 16 ∧ hi ≤ 5 ∧
        channelFreq m.ctx.region f = true ∧ chan (process cfg e m).ctx j = some (f, lo, hi) := by
  obtain ⟨h1, _⟩ := c61_obeyed h
  have h2 : chan (process cfg e m).ctx = _ := congrArg Params.channels h1
  rw [h2]
  have h0 : chan m.ctx = (params m.ctx).retire.channels := rfl
  rw [h0]
  generalize (params m.ctx).retire = p
  generalize cmds cfg msg = cs
  have key : ∀ (cs : List DownCmd) (p : Params),
      (cs.foldl (obey m.ctx.region m.ctx.version (e.battery % 256) e.snr) p).channels j = p.channels j ∨
      ∃ f hi lo, .newChannel j f hi lo ∈ cs ∧ definable m.ctx.region = true ∧ j < 16 ∧ hi ≤ 5 ∧
        channelFreq m.ctx.region f = true ∧
        (cs.foldl (obey m.ctx.region m.ctx.version (e.battery % 256) e.snr) p).channels j = some (f, lo, hi) := by
    intro cs
    induction cs with
    | nil => intro p; exact Or.inl rfl
    | cons c cs ih =>
      intro p
      rw [List.foldl_cons]
      rcases ih (obey m.ctx.region m.ctx.version (e.battery % 256) e.snr p c) with h | ⟨f, hi, lo, a1, a2⟩
      · rw [h]
        have hkeep : (∀ i f hi lo, c ≠ .newChannel i f hi lo) →
            (obey m.ctx.region m.ctx.version (e.battery % 256) e.snr p c).channels = p.channels := by
          intro hn
          cases c
          case newChannel => exact absurd rfl (hn _ _ _ _)
          all_goals
            simp only [obey] <;> (try split) <;> rfl
        by_cases hn : ∀ i f hi lo, c ≠ .newChannel i f hi lo
        · left; rw [hkeep hn]
        · simp only [not_forall, Classical.not_not] at hn
          obtain ⟨i, f, hi, lo, rfl⟩ := hn
          simp only [obey]
          cases hd : definable m.ctx.region with
          | false => left; rfl
          | true =>
            simp only [if_true]
            by_cases hj : j = i ∧ decide (i < 16 ∧ hi ≤ 5) = true ∧ channelFreq m.ctx.region f = true
            · right
              obtain ⟨rfl, h2, h3⟩ := hj
              have h2' := of_decide_eq_true h2
              refine ⟨f, hi, lo, by simp, trivial, h2'.1, h2'.2, h3, ?_⟩
              simp only [Params.answer]
              rw [if_pos ⟨trivial, h2, h3⟩]
            · left
              simp only [Params.answer]
              rw [if_neg hj]
      · exact Or.inr ⟨f, hi, lo, List.mem_cons_of_mem _ a1, a2⟩
  exact key cs p

/-- A single NewChannelReq in a downlink: it is answered, one bit saying that channel and rates are acceptable and the
other that the frequency is, and the channel is set when both are given; other channels stay as they were.
Regions with a fixed plan do not answer, and nothing is set. -/
theorem c54_exactly {cfg : Cfg} {m : Mac} {e : Env} {msg : DownMsg} (h : Gets cfg m e msg) {a b : List DownCmd}
    {i f hi lo : Nat} (hc : cmds cfg msg = a ++ .newChannel i f hi lo :: b)
    (hn : ∀ c ∈ a ++ b, ∀ i f hi lo, c ≠ .newChannel i f hi lo) :
    let s := (process cfg e m).ctx
    (definable m.ctx.region = true →
      Due s .newChannel ∧ s.newChannelAns.dataRateRangeOK = decide (i < 16 ∧ hi ≤ 5) ∧
      s.newChannelAns.channelFreqOK = channelFreq m.ctx.region f ∧
      (∀ j, chan s j = if j = i ∧ s.newChannelAns.dataRateRangeOK = true ∧ s.newChannelAns.channelFreqOK = true then
        some (f, lo, hi) else chan m.ctx j)) ∧
    (definable m.ctx.region = false → chan s = chan m.ctx ∧ (Due s .newChannel ↔ Due m.ctx .newChannel)) := by
  obtain ⟨h1, _⟩ := c61_obeyed h
  rw [hc, List.foldl_append, List.foldl_cons] at h1
  intro s
  have hs : (process cfg e m).ctx = s := rfl
  rw [hs] at h1
  clear_value s
  let g : Params → (Nat → Option (Nat × Nat × Nat)) × (Bool × Bool) × Bool :=
    fun p => (p.channels, p.newChannelAns, p.due .newChannel)
  have hg : ∀ c ∈ a ++ b, ∀ p, g (obey m.ctx.region m.ctx.version (e.battery % 256) e.snr p c) = g p := by
    intro c hc p
    have := hn c hc
    simp only [g]
    cases c
    case newChannel => exact absurd rfl (this _ _ _ _)
    all_goals
      simp only [obey] <;> (try split) <;> simp [Params.answer]
  have h2 : g (params s) = _ := congrArg g h1
  rw [fold_keeps g _ _ _ _ b (fun c hc => hg c (List.mem_append_right _ hc))] at h2
  have h3 := fold_keeps g m.ctx.region m.ctx.version (e.battery % 256) e.snr a
    (fun c hc => hg c (List.mem_append_left _ hc)) (params m.ctx).retire
  generalize a.foldl (obey m.ctx.region m.ctx.version (e.battery % 256) e.snr) (params m.ctx).retire = p at h2 h3
  simp only [g, Prod.mk.injEq] at h2 h3
  have hdue : (params s).due .newChannel = decide (Due s .newChannel) := by simp [params]
  have hdue' : (params m.ctx).retire.due .newChannel = decide (Due m.ctx .newChannel) := by simp [params, Params.retire]
  have hch : (params s).channels = chan s := rfl
  have hch' : (params m.ctx).retire.channels = chan m.ctx := rfl
  rw [hdue, hch] at h2
  rw [hdue', hch'] at h3
  obtain ⟨k1, k2, k3⟩ := h2
  obtain ⟨l1, _, l3⟩ := h3
  constructor
  · intro hd
    simp only [obey, hd, if_true, Params.answer] at k1 k2 k3
    have k2' : (s.newChannelAns.dataRateRangeOK, s.newChannelAns.channelFreqOK) = _ := k2
    simp only [Prod.mk.injEq] at k2'
    refine ⟨by simpa using k3, k2'.1, k2'.2, ?_⟩
    intro j
    rw [k2'.1, k2'.2, k1]
    simp only [l1]
  · intro hd
    simp only [obey, hd] at k1 k3
    refine ⟨k1.trans l1, ?_⟩
    have := k3.trans l3
    exact decide_eq_decide.mp this

/-! ## C55: device time -/

/-- Ticks from `a` to `b` on a 32-bit clock. -/
def ticksBetween (a b : Nat) : Nat := (b + 2 ^ 32 - a) % 2 ^ 32

theorem timerDelta_between {a b : Nat} (ha : a < 2 ^ 32) (hb : b < 2 ^ 32) :
    timerDelta a b + (if b < a then 1 else 0) = ticksBetween a b := by
  unfold timerDelta ticksBetween UINT32_MAX
  split <;> split <;> omega

/-- **C55**: the application is given a device time exactly when the network sent one, and the time is that of the
network plus the time since the end of the uplink (`d` ticks), converted to 1/256 s and rounded down.

Partial: `d` is one tick short when the 32-bit clock wrapped since (`c55_wrap`). -/
theorem c55_device_time_partial {cfg : Cfg} {m : Mac} {e : Env} {msg : DownMsg} (h : Gets cfg m e msg)
    (t s f : Nat) :
    .deviceTime t s f ∈ newEvents m (process cfg e m) ↔
      ∃ d s' f', d + (if e.later < m.ticksAtTx then 1 else 0) = ticksBetween m.ticksAtTx e.later ∧
        .deviceTime s' f' ∈ cmds cfg msg ∧ t = s' * 256 + f' + d * 256 / cfg.tps ∧
        s = t / 256 % 2 ^ 32 ∧ f = t % 256 := by
  obtain ⟨pre, hp, hev⟩ := c61_reports h
  have hd := timerDelta_between (b := e.later) h.reachable.ticks.2 (Nat.mod_lt e.done (by decide))
  rw [hev]
  have hpre : Event.deviceTime t s f ∉ pre := by rcases hp with rfl | rfl <;> simp
  have hend : Event.deviceTime t s f ∉ dataEndEvents m.op msg.ack := by
    unfold dataEndEvents
    cases m.op <;> simp <;> split <;> simp
  have hu : Event.deviceTime t s f ∉ (match msg.userData with | some (p, d) => [Event.rx p d] | none => []) := by
    cases msg.userData <;> simp
  constructor
  · intro hm
    rcases List.mem_append.mp hm with hm | hm
    · exact absurd hm hpre
    · unfold Spec.reports at hm
      simp only [List.mem_append, hend, or_false, List.mem_flatMap] at hm
      rcases hm with (⟨c, hc, hm⟩ | hm) | hm
      · cases c <;> simp only [told, List.mem_singleton, List.not_mem_nil] at hm
        case linkCheck => cases hm
        case deviceTime s' f' =>
          injection hm with e1 e2 e3
          refine ⟨_, s', f', hd, hc, e1, ?_, ?_⟩
          · rw [e2, e1]
          · rw [e3, e1]
      · exact absurd hm hu
      · simp at hm
  · rintro ⟨d, s', f', h1, h2, h3, h4, h5⟩
    have hdd : d = timerDelta m.ticksAtTx e.later := by omega
    refine List.mem_append_right _ ?_
    unfold Spec.reports
    simp only [List.mem_append, List.mem_flatMap]
    refine Or.inl (Or.inl (Or.inl ⟨_, h2, ?_⟩))
    simp only [told, List.mem_singleton]
    rw [h4, h5, h3, hdd]

/-- The time since which the above counts: that at which the radio last reported the end of a transmission (the time
given with the interrupt, or one tick more if the clock wrapped before it was taken), and later than that by the time the
call that notices it takes until it records it. -/
theorem c55_anchor {cfg : Cfg} {m : Mac} (hr : Reachable cfg m) (e : Env) (c : Call) :
    (step cfg m e c).1.ticksAtTx =
      if EndsTx m e c then (m.inputTime + (if e.ticks < m.inputTime then 1 else 0) + e.took) % 2 ^ 32
      else m.ticksAtTx := by
  rw [step_anchor]
  split
  · have hd := timerDelta_between (b := e.ticks) hr.ticks.1 (Nat.mod_lt e.now (by decide))
    have hi := hr.ticks.1
    have ht : e.ticks < 2 ^ 32 := Nat.mod_lt e.now (by decide)
    have hl : e.later = (e.ticks + e.took) % 2 ^ 32 := by
      show (e.now + e.took) % 4294967296 = (e.now % 4294967296 + e.took) % 2 ^ 32
      omega
    rw [hl]
    unfold ticksBetween at hd
    unfold sub32
    generalize e.ticks = b at *
    generalize timerDelta m.inputTime b = d at *
    generalize m.inputTime = a at *
    split at hd <;> rename_i hlt
    · rw [if_pos hlt]; omega
    · rw [if_neg hlt]; omega
  · rfl


/-! ## Cases -/

/-- What a network server sends is received. -/
theorem Gets.of_sent {cfg : Cfg} (hE : ∀ k, BlockFn (cfg.E k)) {m : Mac} {e : Env} (hr : Reachable cfg m)
    (hk : KeysOk cfg m) (hrx : Receiving m e) (ho : DataOp m) (f : DataFrame) (hf : LegalDown m f) (fcnt : Nat)
    (hc : fcnt < 65536)
    (hp : e.packet = sendDown cfg.E (sess11 cfg m) (deviceKeys cfg m) (m.tx.counter % 65536) fcnt f)
    (hl : e.packet.length ≤ 255) (hne : e.packet.length ≠ 244) :
    Gets cfg m e { confirmed := decide (f.mtype = 5), ack := f.ack, pending := f.fPending, fopts := f.fopts
                   payload := f.payload } := by
  have hrec : e.received = e.packet := List.take_of_length_le hl
  obtain ⟨h1, h2⟩ := open_send hE (m := m) (sess11 cfg m) (deviceKeys cfg m) fcnt (m.tx.counter % 65536) hc
    hr.sessionOk.devAddr hf
  refine ⟨hE, hr, hk, hrx, ho, by rw [hrec]; exact hne, ?_⟩
  unfold Delivered
  rw [conf_eq hr ho, hrec, hp, h2, Stream.leValue_le, Nat.mod_eq_of_lt (by simpa using hc)]
  exact h1

/-- A downlink with some MAC commands, as the server of the demonstration device sends it. -/
def carrying (cs : Bytes) : Bytes :=
  sendDown Demo.cfg.E false (deviceKeys Demo.cfg Demo.joined) 0 0
    { mtype := 3, devAddr := 1, adr := false, adrAckReq := false, ack := false, fPending := false, fcnt := 0, fopts := cs
      payload := none, mic := 0 }

/-- The message of that downlink. -/
def bare (cs : Bytes) : DownMsg := { confirmed := false, ack := false, pending := false, fopts := cs, payload := none }

/-- The device when the downlink has been processed. -/
def obeyed (cs : Bytes) : Mac := process Demo.cfg (holding (carrying cs) 2600000) listening

theorem carrying_length (cs : Bytes) : (carrying cs).length = 12 + cs.length := by
  unfold carrying sendDown DataFrame.body DataFrame.fctrl
  simp [cryptOpts, portPayload, Stream.le_length]
  omega

theorem gets (cs : Bytes) (h : cs.length ≤ 15) : Gets Demo.cfg listening (holding (carrying cs) 2600000) (bare cs) :=
  .of_sent (e := holding (carrying cs) 2600000) (fun _ _ h => h) listening_reachable (.of_10 rfl _)
    (by have : Receiving listening (holding [] 2600000) := by decide +kernel
        exact this)
    (by decide +kernel) { mtype := 3, devAddr := 1, adr := false, adrAckReq := false, ack := false, fPending := false, fcnt := 0
                          fopts := cs, payload := none, mic := 0 }
    { mtype := Or.inl rfl, devAddr := by show 1 = listening.ctx.devAddr; decide +kernel, fopts := h, port := by intro p d h; cases h
      once := Or.inr (by simp) } 0 (by decide)
    (by
      have h1 : sess11 Demo.cfg listening = false := by decide +kernel
      have h2 : deviceKeys Demo.cfg listening = deviceKeys Demo.cfg Demo.joined := by
        unfold deviceKeys
        simp only [SessionKeys.mk.injEq]
        decide +kernel
      have h3 : listening.tx.counter % 65536 = 0 := by decide +kernel
      rw [h1, h2, h3]; rfl)
    (by show (carrying cs).length ≤ 255; rw [carrying_length]; omega)
    (by show (carrying cs).length ≠ 244; rw [carrying_length]; omega)


/-- A case of C44: a LinkADRReq for rate 5, power 2, channels 0 and 1, two transmissions is accepted. -/
example : Due (obeyed [3, 0x52, 3, 0, 2]).ctx .linkADR ∧ (obeyed [3, 0x52, 3, 0, 2]).ctx.rate = 5 ∧
    (obeyed [3, 0x52, 3, 0, 2]).ctx.power = 2 ∧ (obeyed [3, 0x52, 3, 0, 2]).ctx.nbTrans = 2 ∧
    (adr (obeyed [3, 0x52, 3, 0, 2]).ctx).enabled 1 = true ∧ (adr (obeyed [3, 0x52, 3, 0, 2]).ctx).enabled 2 = false := by
  have h := (c44_all_or_nothing_partial (gets [3, 0x52, 3, 0, 2] (by decide)) (by decide)).2 [] 5 2 3 0 2 (by decide)
  have hr : listening.ctx.region = .eu868 := by decide +kernel
  rw [hr] at h
  unfold obeyed
  generalize process Demo.cfg (holding (carrying [3, 0x52, 3, 0, 2]) 2600000) listening = x at h ⊢
  obtain ⟨h1, _, h3⟩ := h
  have ha : adrAnswer .eu868 (adr listening.ctx).enabled ([] ++ [.linkADR 5 2 3 0 2]) 5 2 = (true, true, true) := by decide +kernel
  rw [if_pos ha] at h3
  refine ⟨h1, congrArg Adr.rate h3, congrArg Adr.power h3, congrArg Adr.nbTrans h3, ?_, ?_⟩
  · exact (congrFun (congrArg Adr.enabled h3) 1).trans (by decide +kernel)
  · exact (congrFun (congrArg Adr.enabled h3) 2).trans (by decide +kernel)

/-- Another: rate 9 does not exist in EU868, and nothing is changed. -/
example : adr (obeyed [3, 0x92, 3, 0, 2]).ctx = adr listening.ctx ∧ (obeyed [3, 0x92, 3, 0, 2]).ctx.linkADRAns.dataRateOK = false ∧
    (obeyed [3, 0x92, 3, 0, 2]).ctx.linkADRAns.powerOK = true := by
  have h := (c44_all_or_nothing_partial (gets [3, 0x92, 3, 0, 2] (by decide)) (by decide)).2 [] 9 2 3 0 2 (by decide)
  have hr : listening.ctx.region = .eu868 := by decide +kernel
  rw [hr] at h
  unfold obeyed
  generalize process Demo.cfg (holding (carrying [3, 0x92, 3, 0, 2]) 2600000) listening = x at h ⊢
  obtain ⟨_, h2, h3⟩ := h
  have ha : adrAnswer .eu868 (adr listening.ctx).enabled ([] ++ [.linkADR 9 2 3 0 2]) 9 2 = (true, false, true) := by decide +kernel
  rw [ha] at h2 h3
  simp only [Prod.mk.injEq] at h2
  exact ⟨h3, h2.2.1, h2.2.2⟩

/-- C44 does not hold when the block ends in the middle of a LinkADRReq: the mask of the complete one is applied
(channels 1 to 15 are disabled), its rate is not, and there is no answer. -/
theorem c44_truncated : Gets Demo.cfg listening (holding (carrying [3, 0x52, 1, 0, 2, 3]) 2600000) (bare [3, 0x52, 1, 0, 2, 3]) ∧
    (adr listening.ctx).enabled 1 = true ∧ (adr (obeyed [3, 0x52, 1, 0, 2, 3]).ctx).enabled 1 = false ∧
    (obeyed [3, 0x52, 1, 0, 2, 3]).ctx.rate = listening.ctx.rate ∧ listening.ctx.rate ≠ 5 ∧
    ¬ Due (obeyed [3, 0x52, 1, 0, 2, 3]).ctx .linkADR :=
  ⟨gets _ (by decide), by decide +kernel, by decide +kernel, by decide +kernel, by decide +kernel, by decide +kernel⟩

/-- C45 does not hold in regions with 16 channels: LinkADRReq with an empty mask is accepted, and no channel is left. -/
theorem c45_all_disabled : Gets Demo.cfg listening (holding (carrying [3, 0x52, 0, 0, 2]) 2600000) (bare [3, 0x52, 0, 0, 2]) ∧
    (∃ ch < 16, ¬ Masked listening.ctx ch) ∧ (∀ ch < 16, Masked (obeyed [3, 0x52, 0, 0, 2]).ctx ch) ∧
    (obeyed [3, 0x52, 0, 0, 2]).ctx.linkADRAns = ⟨true, true, true⟩ :=
  ⟨gets _ (by decide), ⟨0, by decide, by decide +kernel⟩, by decide +kernel, by decide +kernel⟩

/-- A US915 device in the first receive window of its first uplink. -/
def usListening : Mac := run Demo.cfg usJoined (upAndListen 30000)

theorem usListening_reachable : Reachable Demo.cfg usListening :=
  Demo.run_reach (Demo.run_reach (.init _ _ _ (by simp) ⟨rfl, rfl, rfl, rfl, by decide, by decide⟩) _ (by decide +kernel)) _
    (by decide +kernel)

/-- What a server sends to it. -/
def usCarrying (cs : Bytes) : Env := holding (carrying cs) 2600000

/-- C45 does not hold for a truncated block: ChMaskCntl 7 and an empty mask for the 500 kHz channels, then half a
LinkADRReq.  All 72 channels are masked. -/
theorem c45_truncated : Reachable Demo.cfg usListening ∧ Receiving usListening (usCarrying [3, 0, 0, 0, 0x70, 3, 0, 0, 0, 0x40, 3]) ∧
    Delivered Demo.cfg usListening (usCarrying [3, 0, 0, 0, 0x70, 3, 0, 0, 0, 0x40, 3]) (bare [3, 0, 0, 0, 0x70, 3, 0, 0, 0, 0x40, 3]) ∧
    (∃ ch < 72, ¬ Masked usListening.ctx ch) ∧
    ∀ ch < 72, Masked (process Demo.cfg (usCarrying [3, 0, 0, 0, 0x70, 3, 0, 0, 0, 0x40, 3]) usListening).ctx ch := by
  refine ⟨usListening_reachable, by decide +kernel, ?_, ⟨0, by decide, by decide +kernel⟩, by decide +kernel⟩
  unfold Delivered
  decide +kernel

/-- A case of C45 in a region with a fixed plan: the same without the truncated request is refused. -/
example : ∃ ch < 72, ¬ Masked (process Demo.cfg (usCarrying [3, 0, 0, 0, 0x70, 3, 0, 0, 0, 0x40]) usListening).ctx ch :=
  c45_fixed_plan (msg := bare [3, 0, 0, 0, 0x70, 3, 0, 0, 0, 0x40])
    { cipher := fun _ _ h => h, reachable := usListening_reachable, keys := .of_10 rfl _, receiving := by decide +kernel
      op := by decide +kernel, length := by decide +kernel
      authentic := by unfold Delivered; decide +kernel } (by decide) ⟨0, by decide, by decide +kernel⟩

/-- A case of C49. -/
example : (obeyed [6]).ctx.devStatusAns.margin = 5 := by
  have h := (c49_dev_status (gets [6] (by decide)) (by decide)).2.2
  unfold obeyed
  rw [h]
  decide

/-- A case of C54: 867.1 MHz with rates 0 to 5 as channel 3. -/
example : chan (obeyed [7, 3, 0x18, 0x4f, 0x84, 0x50]).ctx 3 = some (867100000, 0, 5) := by
  have h := c54_exactly (gets [7, 3, 0x18, 0x4f, 0x84, 0x50] (by decide)) (a := []) (b := []) (i := 3) (f := 867100000)
    (hi := 5) (lo := 0) (by decide) (by simp)
  have hf : channelFreq listening.ctx.region 867100000 = true := by decide +kernel
  have hd : definable listening.ctx.region = true := by decide +kernel
  unfold obeyed
  generalize process Demo.cfg (holding (carrying [7, 3, 0x18, 0x4f, 0x84, 0x50]) 2600000) listening = x at h ⊢
  generalize listening = y at h hf hd
  obtain ⟨_, h2, h3, h4⟩ := h.1 hd
  rw [h4 3, if_pos ⟨rfl, h2.trans (by decide), h3.trans hf⟩]

/-- C54 does not hold for a request whose lowest rate is above its highest: it is acknowledged and set. -/
theorem c54_inverted : Gets Demo.cfg listening (holding (carrying [7, 3, 0x18, 0x4f, 0x84, 0x05]) 2600000)
      (bare [7, 3, 0x18, 0x4f, 0x84, 0x05]) ∧
    chan (obeyed [7, 3, 0x18, 0x4f, 0x84, 0x05]).ctx 3 = some (867100000, 5, 0) ∧
    (obeyed [7, 3, 0x18, 0x4f, 0x84, 0x05]).ctx.newChannelAns = ⟨true, true⟩ :=
  ⟨gets _ (by decide), by decide +kernel, by decide +kernel⟩

/-- C54, another: the network may redefine the default channels (the specification reserves them). -/
theorem c54_default_redefined : Gets Demo.cfg listening (holding (carrying [7, 0, 0x18, 0x4f, 0x84, 0x50]) 2600000)
      (bare [7, 0, 0x18, 0x4f, 0x84, 0x50]) ∧
    chan (obeyed [7, 0, 0x18, 0x4f, 0x84, 0x50]).ctx 0 = some (867100000, 0, 5) :=
  ⟨gets _ (by decide), by decide +kernel⟩

/-- A case of C55: network time 1000 s and 128/256 s at the end of the uplink (1.56 s on the clock of the device), read
at 2.6 s. -/
example : .deviceTime (1000 * 256 + 128 + 266) 1001 138 ∈ newEvents listening (obeyed [13, 0xe8, 3, 0, 0, 128]) :=
  (c55_device_time_partial (gets [13, 0xe8, 3, 0, 0, 128] (by decide)) _ _ _).mpr
    ⟨1040000, 1000, 128, by decide +kernel, by decide, by decide, by decide, by decide⟩

/-- A confirmed send at the time 2 s before the clock wraps. -/
def wrapListening : Mac := run Demo.cfg Demo.joined
  ([Demo.send true (2 ^ 32 - 2000000)] ++ Demo.untilRx1 (2 ^ 32 - 2000000) ++ [(Demo.at_ (2 ^ 32 + 570000), .radioEvent 570000)])

/-- C55 is not exact when the clock wraps between the end of the uplink and the downlink: after 1062500 us, which are
272/256 s, 271 are added. -/
theorem c55_wrap : Reachable Demo.cfg wrapListening ∧ wrapListening.ticksAtTx = 2 ^ 32 - 470000 ∧
    Gets Demo.cfg wrapListening (holding (carrying [13, 0xe8, 3, 0, 0, 0]) (2 ^ 32 - 470000 + 1062500))
      (bare [13, 0xe8, 3, 0, 0, 0]) ∧
    .deviceTime (1000 * 256 + 271) 1001 15 ∈ newEvents wrapListening
      (process Demo.cfg (holding (carrying [13, 0xe8, 3, 0, 0, 0]) (2 ^ 32 - 470000 + 1062500)) wrapListening) := by
  have hr : Reachable Demo.cfg wrapListening := Demo.run_reach Demo.joined_reachable _ (by decide +kernel)
  have hg : Gets Demo.cfg wrapListening (holding (carrying [13, 0xe8, 3, 0, 0, 0]) (2 ^ 32 - 470000 + 1062500))
      (bare [13, 0xe8, 3, 0, 0, 0]) :=
    { cipher := fun _ _ h => h, reachable := hr, keys := .of_10 rfl _, receiving := by decide +kernel
      op := by decide +kernel, length := by decide +kernel
      authentic := by unfold Delivered; decide +kernel }
  exact ⟨hr, by decide +kernel, hg, (c55_device_time_partial hg _ _ _).mpr
    ⟨1062499, 1000, 0, by decide +kernel, by decide, by decide, by decide, by decide⟩⟩

end LDL
