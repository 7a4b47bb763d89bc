import Verif.Spec.Defaults
import Verif.Spec.Restart
import Verif.Lemmas.Buffer
import Verif.Lemmas.Effects
import Verif.Lemmas.Demo

/-!
# Taking over and forgetting a session: C50, C51
-/

namespace LDL
open Spec

theorem getDefaultChannels_plan (s : Session) (h : ∀ i, s.chConfig i = 0) :
    ∃ cc, getDefaultChannels s = { s with chConfig := cc } ∧
      ∀ ch, chan { s with chConfig := cc } ch = defaultChan s.region ch := by
  have key : ∀ (r : Region) (f : Nat), s.region = r → definable r = true → (∀ k < 3, channelFreq r (f + 200000 * k) = true) →
      f % 100 = 0 → f / 100 + 4000 < 2 ^ 24 →
      (∀ ch, defaultChan r ch = if ch < 3 then some (f + 200000 * ch, 0, 5) else none) →
      ∃ cc, (setChannel (setChannel (setChannel s 0 f 0 5).2 1 (f + 200000) 0 5).2 2 (f + 400000) 0 5).2 =
        { s with chConfig := cc } ∧ ∀ ch, chan { s with chConfig := cc } ch = defaultChan r ch := by
    intro r f hr hd hf h1 h2 hdef
    subst hr
    obtain ⟨a, ha, ha'⟩ := setChannel_chan (s := s) hd (i := 0) (f := f) (lo := 0) (hi := 5) (by decide) (hf 0 (by decide))
      h1 (by omega) (by decide) (by decide)
    rw [ha]
    obtain ⟨b, hb, hb'⟩ := setChannel_chan (s := { s with chConfig := a }) hd (i := 1) (f := f + 200000) (lo := 0) (hi := 5)
      (by decide) (hf 1 (by decide)) (by omega) (by omega) (by decide) (by decide)
    rw [hb]
    obtain ⟨c, hc, hc'⟩ := setChannel_chan (s := { s with chConfig := b }) hd (i := 2) (f := f + 400000) (lo := 0) (hi := 5)
      (by decide) (hf 2 (by decide)) (by omega) (by omega) (by decide) (by decide)
    refine ⟨c, hc, fun ch => ?_⟩
    have h0 : chan s ch = none := by
      unfold chan
      revert hd
      cases s.region <;> intro hd <;> first | (simp only [h]; rw [if_neg (by omega)]) | exact absurd hd (by decide)
    have e := hc' ch
    change chan { s with chConfig := c } ch = if ch = 2 then _ else chan { s with chConfig := b } ch at e
    rw [e]
    have e := hb' ch
    change chan { s with chConfig := b } ch = if ch = 1 then _ else chan { s with chConfig := a } ch at e
    rw [e, ha' ch, h0, hdef]
    by_cases c2 : ch = 2
    · subst c2; simp
    · rw [if_neg c2]
      by_cases c1 : ch = 1
      · subst c1; simp
      · rw [if_neg c1]
        by_cases c0 : ch = 0
        · subst c0; simp
        · rw [if_neg c0, if_neg (by omega)]
  have four : s.region = .eu868 ∨ s.region = .eu433 ∨ (s.region = .us915 ∨ s.region = .au915) := by
    cases s.region <;> simp
  rcases four with hr | hr | hr
  · obtain ⟨cc, h1, h2⟩ := key .eu868 868100000 hr rfl (by decide) (by decide) (by decide) (fun _ => rfl)
    refine ⟨cc, Eq.trans ?_ h1, fun ch => (h2 ch).trans (by rw [hr])⟩
    unfold getDefaultChannels
    rw [hr]
  · obtain ⟨cc, h1, h2⟩ := key .eu433 433175000 hr rfl (by decide) (by decide) (by decide) (fun _ => rfl)
    refine ⟨cc, Eq.trans ?_ h1, fun ch => (h2 ch).trans (by rw [hr])⟩
    unfold getDefaultChannels
    rw [hr]
  · refine ⟨s.chConfig, ?_, fun ch => ?_⟩
    · show getDefaultChannels s = s
      unfold getDefaultChannels
      rcases hr with hr | hr <;> rw [hr]
    · unfold chan defaultChan
      rcases hr with hr | hr <;> rw [hr]

theorem forgetNetwork_defaults (m : Mac) :
    (NoNetwork (forgetNetwork m).ctx ∧ DefaultChannels m.ctx.region (forgetNetwork m).ctx ∧
      DefaultReceive m.ctx.region (forgetNetwork m).ctx) ∧
    (forgetNetwork m).ctx.region = m.ctx.region ∧ (forgetNetwork m).ctx.rate = m.ctx.rate ∧
    (forgetNetwork m).ctx.power = m.ctx.power ∧ (forgetNetwork m).ctx.adr = m.ctx.adr ∧
    (forgetNetwork m).ctx.maxDutyCycle = m.maxDutyCycle ∧ (forgetNetwork m).ctx.magic = 0xdb := by
  unfold forgetNetwork
  simp only []
  obtain ⟨cc, h, hc⟩ := getDefaultChannels_plan {
    region := m.ctx.region
    rate := m.ctx.rate
    power := m.ctx.power
    adr := m.ctx.adr
    magic := magicNumber
    rx1DROffset := m.ctx.region.getRX1Offset
    rx1Delay := m.ctx.region.getRX1Delay
    rx2DataRate := m.ctx.region.getRX2Rate
    rx2Freq := m.ctx.region.getRX2Freq
    adrAckLimit := 64
    adrAckDelay := 32
    txParamSetup := 0xff
    maxDutyCycle := m.maxDutyCycle } (fun _ => rfl)
  rw [h]
  refine ⟨⟨⟨rfl, ⟨rfl, rfl, rfl⟩, ⟨rfl, rfl⟩, ⟨rfl, rfl⟩, rfl, ⟨rfl, rfl⟩, rfl⟩, ⟨hc, fun ch => ?_⟩, ?_⟩,
    rfl, rfl, rfl, rfl, rfl, rfl⟩
  · simp [Masked]
  · refine ⟨?_, ?_, ?_⟩ <;> cases m.ctx.region <;> rfl

/-- **C51** (for a device that has joined).  Whatever the device was doing, forgetting the network leaves it not joined
and doing nothing, without address, counters, pending answers or repetitions, with the channels and receive parameters
its region starts with.  Region, data rate, power, ADR setting and the duty cycle limit the user chose stay as they were.
The session as it now is, is the last thing reported. -/
theorem c51_forget_partial (cfg : Cfg) (m : Mac) (e : Env) (hj : m.ctx.joined = true) :
    let m' := (step cfg m e .forget).1
    (step cfg m e .forget).2 = .ok ∧ m'.op = .none ∧
    (NoNetwork m'.ctx ∧ DefaultChannels m.ctx.region m'.ctx ∧ DefaultReceive m.ctx.region m'.ctx) ∧
    (m'.ctx.region = m.ctx.region ∧ m'.ctx.rate = m.ctx.rate ∧ m'.ctx.power = m.ctx.power ∧ m'.ctx.adr = m.ctx.adr ∧
      m'.ctx.maxDutyCycle = m.maxDutyCycle) ∧
    ∃ o, Spec.newEvents m m' = o ++ [.sessionUpdated m'.ctx] := by
  have hc : (cancel m).ctx = m.ctx := by rcases cancel_shape m with ⟨_, h⟩ | ⟨_, h⟩ <;> rw [h]
  have ho : (cancel m).op = .none := by rcases cancel_shape m with ⟨_, h⟩ | ⟨_, h⟩ <;> rw [h]
  have hd : (cancel m).maxDutyCycle = m.maxDutyCycle := by rcases cancel_shape m with ⟨_, h⟩ | ⟨_, h⟩ <;> rw [h]
  obtain ⟨o, hout⟩ : ∃ o, (cancel m).out = m.out ++ o := by
    rcases cancel_shape m with ⟨_, h⟩ | ⟨_, h⟩ <;> rw [h] <;> exact ⟨_, rfl⟩
  have hs : step cfg m e .forget =
      (pushSessionUpdate (forgetNetwork { cancel m with band := upd (cancel m).band GLOBAL 0 }), .ok) := by
    show (forget m, Status.ok) = _
    unfold forget
    simp only []
    rw [if_pos (by rw [hc]; exact hj)]
  rw [hs]
  have hy : ({ cancel m with band := upd (cancel m).band GLOBAL 0 } : Mac).ctx = m.ctx := hc
  have hyd : ({ cancel m with band := upd (cancel m).band GLOBAL 0 } : Mac).maxDutyCycle = m.maxDutyCycle := hd
  have hyo : ({ cancel m with band := upd (cancel m).band GLOBAL 0 } : Mac).out = m.out ++ o := hout
  have hyp : ({ cancel m with band := upd (cancel m).band GLOBAL 0 } : Mac).op = .none := ho
  generalize ({ cancel m with band := upd (cancel m).band GLOBAL 0 } : Mac) = y at hy hyd hyo hyp
  have hf := forgetNetwork_defaults y
  have hfo : (forgetNetwork y).out = m.out ++ o := hyo
  have hfp : (forgetNetwork y).op = .none := hyp
  rw [hy, hyd] at hf
  generalize forgetNetwork y = x at hf hfo hfp
  obtain ⟨h1, h2, h3, h4, h5, h6, _⟩ := hf
  refine ⟨rfl, hfp, h1, ⟨h2, h3, h4, h5, h6⟩, o, ?_⟩
  show (x.out ++ [Event.sessionUpdated x.ctx]).drop m.out.length = _
  rw [hfo, List.append_assoc, List.drop_left]
  rfl

/-- A device in the middle of a confirmed uplink, with a fourth channel, a masked channel and data rate 3. -/
def withNetwork : Mac := run Demo.cfg Demo.joined
  [(Demo.at_ 21000, .addChannel 3 867100000 0 5), (Demo.at_ 21000, .maskChannel 1), (Demo.at_ 21000, .setRate 3),
    Demo.send true 30000, (Demo.at_ 30000, .process)]

/-- `c51_forget_partial` is not vacuous: that device has everything the theorem says is dropped, and keeps its rate. -/
example : withNetwork.ctx.joined = true ∧ withNetwork.op ≠ .none ∧ withNetwork.ctx.devAddr = 1 ∧
    chan withNetwork.ctx 3 = some (867100000, 0, 5) ∧ Masked withNetwork.ctx 1 ∧
    (step Demo.cfg withNetwork (Demo.at_ 40000) .forget).1.ctx.rate = 3 := by
  decide +kernel

/-- **C51 fails for a device that has not joined**: forgetting is then only a cancel.  A channel defined before stays,
and nothing is reported. -/
theorem c51_not_joined :
    (∀ (cfg : Cfg) (m : Mac) (e : Env), m.ctx.joined = false →
      (step cfg m e .forget).1.ctx = m.ctx ∧ ∀ s, Event.sessionUpdated s ∉ Spec.newEvents m (step cfg m e .forget).1) ∧
    ∃ (cfg : Cfg) (m : Mac) (e : Env), Reachable cfg m ∧ m.ctx.joined = false ∧
      ¬ DefaultChannels m.ctx.region (step cfg m e .forget).1.ctx := by
  refine ⟨fun cfg m e hj => ?_, ?_⟩
  · have hc : (cancel m).ctx = m.ctx := by rcases cancel_shape m with ⟨_, h⟩ | ⟨_, h⟩ <;> rw [h]
    have hs : (step cfg m e .forget).1 = cancel m := by
      show forget m = _
      unfold forget
      simp only []
      rw [if_neg (by rw [hc, hj]; decide)]
    rw [hs]
    refine ⟨hc, fun s hs => ?_⟩
    unfold Spec.newEvents at hs
    rcases cancel_shape m with ⟨_, h⟩ | ⟨_, h⟩ <;> rw [h] at hs <;> simp only [List.drop_left] at hs <;>
      split at hs <;> simp at hs
  · refine ⟨Demo.cfg, run Demo.cfg Demo.idle [(Demo.at_ 21000, .addChannel 3 867100000 0 5)], Demo.at_ 30000,
      Demo.run_reach Demo.idle_reachable _ (by decide +kernel), by decide +kernel, fun h => ?_⟩
    have := h.plan 3
    revert this
    decide +kernel

/-- **C50** (regional defaults only for the first region built in).  A stored session is taken over, exactly as it is,
if it carries the magic number and is of the region given.  Otherwise the stored session has no influence: the device
starts without a network, with the lowest data rate (number one if built with `LDL_DISABLE_SF12`), full power and ADR; if the region is the first one the library was
built with, channels and receive parameters are those of the region. -/
theorem c50_restore_partial (cfg : Cfg) (region : Region) (arg : InitArg) (e : Env) :
    let m := init cfg region arg e
    (m.op = .none ∧ m.ctx.region = region) ∧
    (∀ s, arg.session = some s → s.magic = 0xdb → s.region = region → m.ctx = s) ∧
    ((∀ s, arg.session = some s → s.magic = 0xdb → s.region ≠ region) →
      m.ctx = (init cfg region { arg with session := none } e).ctx ∧
      NoNetwork m.ctx ∧ m.ctx.rate = (if cfg.noSf12 then 1 else 0) ∧ m.ctx.power = 0 ∧ m.ctx.adr = true ∧ (∀ ch, ¬ Masked m.ctx ch) ∧
      (region = cfg.firstRegion → DefaultChannels region m.ctx ∧ DefaultReceive region m.ctx)) := by
  intro m
  obtain ⟨c, k, h, hc⟩ := init_fields cfg region arg e
  obtain ⟨c', k', h', hc'⟩ := init_fields cfg region { arg with session := none } e
  have hm : m.ctx = c := congrArg Mac.ctx h
  have hm' : (init cfg region { arg with session := none } e).ctx = c' := congrArg Mac.ctx h'
  refine ⟨⟨congrArg Mac.op h, ?_⟩, fun s hs hg hr => ?_, fun hn => ?_⟩
  · rw [hm]
    rcases hc with ⟨s, _, _, h1, h2⟩ | ⟨_, h1, _⟩
    · rw [h2, h1]
    · rw [h1]; rfl
  · rcases hc with ⟨s', h1, _, _, h2⟩ | ⟨h1, _⟩
    · rw [hm, h2]
      rw [h1] at hs
      exact Option.some.inj hs
    · exact absurd hr (h1 s hs hg)
  · have e1 : c = (initSession cfg {} region).ctx := by
      rcases hc with ⟨s, h1, h2, h3, _⟩ | ⟨_, h1, _⟩
      · exact absurd h3 (hn s h1 h2)
      · exact h1
    have e2 : c' = (initSession cfg {} region).ctx := by
      rcases hc' with ⟨s, h1, _⟩ | ⟨_, h1, _⟩
      · exact absurd h1 (by simp)
      · exact h1
    rw [hm, hm', e1, e2]
    obtain ⟨⟨hn, hd, hr⟩, hreg, _⟩ := forgetNetwork_defaults { ({} : Mac) with ctx := { region := cfg.firstRegion } }
    unfold initSession
    simp only []
    generalize (forgetNetwork { ({} : Mac) with ctx := { region := cfg.firstRegion } }).ctx = x at hn hd hr hreg
    refine ⟨trivial, ⟨hn.1, hn.2, hn.3, hn.4, hn.5, hn.6, hn.7⟩, rfl, trivial, trivial, hd.mask, fun hf => ?_⟩
    subst hf
    refine ⟨⟨fun ch => ?_, hd.mask⟩, ⟨hr.1, hr.2, hr.3⟩⟩
    have hp := hd.plan ch
    unfold chan at hp ⊢
    rw [hreg] at hp
    exact hp

/-- Both cases of `c50_restore_partial` occur: the session of a joined device is taken over in its region and in no
other. -/
example : (init Demo.cfg .eu868 { session := some Demo.joined.ctx } (Demo.at_ 0)).ctx.joined = true ∧
    (init Demo.cfg .us915 { session := some Demo.joined.ctx } (Demo.at_ 0)).ctx.joined = false := by
  decide +kernel

/-- **C50 fails for any other region**: built with EU868 first, a US915 device listens in RX2 at 869.525 MHz and an
EU433 device has channels in the 868 MHz band. -/
theorem c50_defaults_wrong : ∃ cfg : Cfg, cfg.firstRegion = .eu868 ∧
    (∀ arg e, arg.session = none → ¬ DefaultReceive .us915 (init cfg .us915 arg e).ctx) ∧
    (∀ arg e, arg.session = none → ¬ DefaultChannels .eu433 (init cfg .eu433 arg e).ctx) := by
  refine ⟨Demo.cfg, rfl, fun arg e h hd => ?_, fun arg e h hd => ?_⟩
  · obtain ⟨c, k, h1, hc⟩ := init_fields Demo.cfg .us915 arg e
    rcases hc with ⟨s, hs, _⟩ | ⟨_, hc, _⟩
    · rw [h] at hs; exact absurd hs (by simp)
    · rw [h1, hc] at hd
      have hd : DefaultReceive .us915 (initSession Demo.cfg {} .us915).ctx := hd
      exact absurd hd.rx2 (by decide +kernel)
  · obtain ⟨c, k, h1, hc⟩ := init_fields Demo.cfg .eu433 arg e
    rcases hc with ⟨s, hs, _⟩ | ⟨_, hc, _⟩
    · rw [h] at hs; exact absurd hs (by simp)
    · rw [h1, hc] at hd
      have hd : DefaultChannels .eu433 (initSession Demo.cfg {} .eu433).ctx := hd
      exact absurd (hd.plan 0) (by decide +kernel)

end LDL
