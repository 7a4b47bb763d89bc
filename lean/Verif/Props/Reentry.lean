import Verif.Lemmas.ReentryIdle
import Verif.Lemmas.Demo
import Verif.Spec.RadioProtocol

/-!
# C93: requests made from a callback
-/

namespace LDL
open Spec (Request Plan Alike lateEvents afterwards Phase follow Reachable)

/-! ### The model with callbacks is the model -/

theorem Re.commandLoop_id (cfg : Cfg) (e : Env) (fuel : Nat) (s : Stream) (m : Mac) (adr : AdrState) :
    Re.commandLoop (fun _ m => m) cfg e fuel s m adr = LDL.commandLoop cfg e fuel s m adr := by
  induction fuel generalizing s m adr with
  | zero => rfl
  | succ n ih =>
    simp only [Re.commandLoop, LDL.commandLoop]
    rcases MacCmd.getDownCommand cfg.v11 s with ⟨_ | cmd, s'⟩
    · rfl
    · dsimp only
      rw [ih]
      have : ∀ b, Re.applyCommand (fun _ m => m) cfg e b cmd m adr = LDL.applyCommand cfg e b cmd m adr := by
        intro b; cases cmd <;> rfl
      rw [this]

theorem Re.processCommands_id (cfg : Cfg) (e : Env) (m : Mac) (inp : Bytes) :
    Re.processCommands (fun _ m => m) cfg e m inp = LDL.processCommands cfg e m inp := by
  unfold Re.processCommands LDL.processCommands
  dsimp only
  rw [Re.commandLoop_id]

theorem Re.dataReceived_id (cfg : Cfg) (e : Env) (m : Mac) (f : Frame.Down) (buf : Bytes) :
    Re.dataReceived (fun _ m => m) cfg e m f buf = LDL.dataReceived cfg e m f buf := by
  unfold Re.dataReceived LDL.dataReceived
  have h1 : ∀ x, Re.dataOpts (fun _ m => m) cfg e x f buf = LDL.dataOpts cfg e x f buf := by
    intro x
    unfold Re.dataOpts LDL.dataOpts
    cases f.opts with
    | none => rfl
    | some off => exact Re.processCommands_id ..
  have h2 : ∀ x, Re.dataPayload (fun _ m => m) cfg e x f buf = LDL.dataPayload cfg e x f buf := by
    intro x
    unfold Re.dataPayload LDL.dataPayload
    cases f.data with
    | none => rfl
    | some off => dsimp only; rw [Re.processCommands_id]; rfl
  rw [h1, h2]
  rfl

theorem Re.packetReceived_id (cfg : Cfg) (e : Env) (m : Mac) :
    Re.packetReceived (fun _ m => m) cfg e m = LDL.packetReceived cfg e m := by
  unfold Re.packetReceived LDL.packetReceived
  dsimp only
  rcases Ops.receiveFrame cfg _ e.rxBuffer e.received.length with ⟨_ | f, buf⟩
  · rfl
  · dsimp only
    rw [Re.dataReceived_id]
    rfl

theorem Re.processRX_id (cfg : Cfg) (e : Env) (ev : Sme) (m : Mac) :
    Re.processRX (fun _ m => m) cfg e ev m = LDL.processRX cfg e ev m := by
  unfold Re.processRX LDL.processRX
  dsimp only
  rw [Re.packetReceived_id]
  rfl

/-- An application that does nothing in its callback. -/
theorem Re.process_id (cfg : Cfg) (e : Env) (m : Mac) :
    Re.process (fun _ m => m) cfg e m = LDL.process cfg e m := by
  unfold Re.process LDL.process
  have h1 : Re.processBands (fun _ m => m) cfg e m = LDL.processBands cfg e m := rfl
  have h2 : ∀ ev lag x, Re.dispatch (fun _ m => m) cfg e ev lag x = LDL.dispatch cfg e ev lag x := by
    intro ev lag x
    unfold Re.dispatch LDL.dispatch
    cases hs : x.state <;> dsimp only
    all_goals first | rfl | exact Re.processRX_id ..
  rw [h1]
  dsimp only
  rw [h2]

/-! ### The property -/

/-- **C93**, during an operation: a request made in a callback while an operation is in progress is refused and changes
nothing. -/
theorem c93_refused (cfg : Cfg) (e : Env) (m : Mac) (c : Call) (hc : Request c) (ho : m.op ≠ .none) :
    (step cfg m e c).1 = m ∧ (step cfg m e c).2 ≠ .ok := by
  refine ⟨request_busy cfg e m c hc ho, ?_⟩
  cases c with
  | entropy => show (entropy e m).2 ≠ _; rw [entropy_boot, if_neg ho]; simp
  | otaa =>
    show (otaa cfg e m).2 ≠ _
    rw [otaa_start]
    by_cases hj : m.ctx.joined = true
    · rw [if_pos hj]; simp
    · rw [if_neg hj, if_neg ho]; simp
  | data c1 c2 c3 c4 c5 =>
    show (dataCommand cfg e m c1 c2 c3 c4 c5).2 ≠ _
    unfold dataCommand
    by_cases hj : m.ctx.joined = true
    · rw [if_pos hj, if_neg ho]; simp
    · rw [if_neg hj]; simp
  | _ => exact absurd hc (by simp [Request])

/-- **C93**, in part: a processing call in whose callbacks the application makes requests does what the same call does
without them, followed by the requests made in the callbacks by which an operation ended.  All other requests were
refused.  Requests in the CHANNEL_READY callback while no operation is in progress: `c93_channel_ready`.  What is missing:
those while the radio is started after an error, and calls other than requests, for which the claim is false
(`c93_cancel_fails`). -/
theorem c93_process_partial (cfg : Cfg) (plan : Plan) (hp : plan.Requests) (e : Env) (m : Mac)
    (hch : m.op ≠ .none ∨ plan .channelReady = []) :
    Alike (Re.process (plan.app cfg) cfg e m)
      (afterwards cfg plan (step cfg m e .process).1 (newEvents m (step cfg m e .process).1)) :=
  re_process cfg plan hp e m hch

/-- **C93**, in the CHANNEL_READY callback of an idle device: the processing call does what the same call does without
requests, followed by the requests and one more processing call at the same time.  The device is idle when no operation
is in progress, no timer of one is running and no interrupt is recorded; the clock does not advance in the callback.
Without the event the requests are not made. -/
theorem c93_channel_ready (cfg : Cfg) (plan : Plan) (hp : plan.Requests) (e : Env) (m : Mac) (ht : 0 < cfg.tps)
    (h32 : cfg.tps < 4294967296) (ho : m.op = .none) (hs : m.state = .idle) (hi : m.inputState = false)
    (hA : m.timerA.armed = false) (hB : m.timerB.armed = false)
    (hnow : ∀ x ∈ plan .channelReady, x.1.later = e.ticks) :
    (.channelReady ∈ newEvents m (step cfg m e .process).1 →
      Alike (Re.process (plan.app cfg) cfg e m)
        (run cfg m ([(e, .process)] ++ plan .channelReady ++ [(e, .process)]))) ∧
    (.channelReady ∉ newEvents m (step cfg m e .process).1 →
      Re.process (plan.app cfg) cfg e m = (step cfg m e .process).1) := by
  have hst : (step cfg m e .process).1 = process cfg e m := rfl
  rw [hst]
  cases hr : (processBands cfg e m).1 with
  | false =>
    obtain ⟨h1, h2⟩ := idle_process cfg (plan.app cfg) e m hs hi hA hB hr
    refine ⟨fun h => ?_, fun _ => h2⟩
    rw [h1] at h
    exact absurd h (by simp)
  | true =>
    refine ⟨fun _ => ?_, fun h => ?_⟩
    · have h := re_channelReady cfg plan hp e m ht h32 ho hs hi hA hB hnow hr
      have hrun : run cfg m ([(e, .process)] ++ plan .channelReady ++ [(e, .process)]) =
          process cfg e (run cfg (process cfg e m) (plan .channelReady)) :=
        run_last cfg (plan .channelReady) (process cfg e m) e .process
      rw [hrun]
      exact h
    · exact absurd (channelReady_told cfg e m hs hr) h

/-- **C93**: the timer of the duty cycle counters is set as after any processing call. -/
theorem c93_timer (cfg : Cfg) (h : Re.App) (e : Env) (m : Mac) :
    setNextBandEvent cfg e (Re.process h cfg e m) = Re.process h cfg e m :=
  setNextBandEvent_again cfg e _

/-! ### Examples -/

namespace ReDemo
open Demo

/-- A frame was sent and nothing received; the next processing call ends the operation. -/
def ending : Mac :=
  run cfg start (boot ++ [(at_ 20000, .abp 1), send false 30000] ++ (cycle 30000).dropLast)

theorem ending_reachable : Reachable cfg ending := run_reach start_reachable _ (by decide +kernel)

/-- The radio fails during a transmission: the next processing call ends the operation with an error. -/
def failing : Mac := run cfg start (sending true ++ [(at_ 70000, .radioEvent 70000)])

/-- The application asks for entropy after an error, and for the next frame to be sent when one is complete. -/
def sender : Plan := fun
  | .opError => [(at_ 70000, .entropy)]
  | .dataComplete => [send false 6130000]
  | _ => []

theorem sender_requests : sender.Requests := by
  intro ev x hx
  cases ev <;> simp [sender] at hx <;> subst hx <;> trivial

/-- In the callback of the error the request is accepted, in the callback of the completion it is not. -/
example :
    (Re.process (sender.app cfg) cfg (at_ 70000) failing).op = .entropy ∧
    (lateEvents (newEvents failing (process cfg (at_ 70000) failing))).map (fun | .opError => true | _ => false) = [true] ∧
    (Re.process (sender.app cfg) cfg (at_ 6130000) ending).op = .none ∧
    (newEvents ending (process cfg (at_ 6130000) ending)).any (fun | .dataComplete => true | _ => false) = true ∧
    (ending.op ≠ .none ∧ failing.op ≠ .none) := by decide +kernel

/-- The device after its frame was sent; at 900 s the duty cycle allows the next one. -/
def waiting : Mac := (step cfg ending (at_ 6130000) .process).1

theorem waiting_reachable : Reachable cfg waiting := .step (at_ 6130000) .process ending_reachable trivial

/-- The application sends when a channel is ready. -/
def eager : Plan := fun
  | .channelReady => [send false 900000000]
  | _ => []

theorem eager_requests : eager.Requests := by
  intro ev x hx
  cases ev <;> simp [eager] at hx <;> subst hx <;> trivial

/-- The hypotheses of `c93_channel_ready`; the request is accepted and the radio started for it in the same call. -/
example :
    Reachable cfg waiting ∧ waiting.op = .none ∧ waiting.state = .idle ∧ waiting.inputState = false ∧
    waiting.timerA.armed = false ∧ waiting.timerB.armed = false ∧
    (∀ x ∈ eager .channelReady, x.1.later = (at_ 900000000).ticks) ∧
    (newEvents waiting (process cfg (at_ 900000000) waiting)).map (fun | .channelReady => true | _ => false) = [true] ∧
    (Re.process (eager.app cfg) cfg (at_ 900000000) waiting).op = .dataUnconfirmed ∧
    (Re.process (eager.app cfg) cfg (at_ 900000000) waiting).state = .startRadioForTX :=
  ⟨waiting_reachable, by decide +kernel, by decide +kernel,
    by decide +kernel, by decide +kernel, by decide +kernel, by
      intro x hx
      simp only [eager, List.mem_singleton] at hx
      subst hx
      decide +kernel, by decide +kernel, by decide +kernel, by decide +kernel⟩

/-- An application that cancels when its frame is complete. -/
def canceller : Re.App := fun ev m => match ev with | .dataComplete => cancel m | _ => m

/-- The same device after it was told to send again. -/
def after : Mac :=
  run cfg (Re.process canceller cfg (at_ 6130000) ending) (processAt [900000000] ++ [send false 900000000] ++ processAt [900000000, 900030000])

/-- **C93 fails for other calls**: an application that cancels in the callback of the completion leaves the device idle
while the radio is in reset.  The next frame is then handed to a radio that is not ready for it, which the radio driver
does not accept. -/
theorem c93_cancel_fails :
    Reachable cfg ending ∧
    (follow .unknown ending.out).isSome = true ∧
    (Re.process canceller cfg (at_ 6130000) ending).state = .idle ∧
    follow .unknown (Re.process canceller cfg (at_ 6130000) ending).out = some .reset ∧
    (newEvents ending after).any (fun | .transmit .. => true | _ => false) = true ∧
    follow .unknown after.out = none :=
  ⟨ending_reachable, by decide +kernel⟩

/-- An application that asks for entropy when the DevNonce is reported. -/
def asker : Re.App := fun ev m => match ev with | .devNonceUpdated _ => (entropy (at_ 20000) m).1 | _ => m

/-- The state in which that callback is entered. -/
def asked : Mac :=
  nextJoinRequest cfg (at_ 20000) (Ops.deriveJoinKeys cfg { idle with trials := 0, day := 60 * 60 * 24 * timeTPS })

/-- **C93 fails in the callback of the join request**: entropy requested there is accepted, but the operation in progress
afterwards is the join. -/
theorem c93_entropy_lost :
    Reachable cfg idle ∧
    (entropy (at_ 20000) asked).2 = .ok ∧
    (Re.otaa asker cfg (at_ 20000) idle).2 = .ok ∧
    (Re.otaa asker cfg (at_ 20000) idle).1.op = .joining ∧
    (newEvents idle (Re.otaa asker cfg (at_ 20000) idle).1).map (fun | .devNonceUpdated n => n | _ => 0) = [1] :=
  ⟨idle_reachable, by decide +kernel⟩

end ReDemo

end LDL
