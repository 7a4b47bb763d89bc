import Verif.Lemmas.MbedOutcome
import Verif.Props.Restart

/-!
# The mbed wrapper: C81 to C84; processing comes to rest: C85
-/

namespace LDL
open Spec

/-! ## C81 -/

namespace Mbed
open Spec.Mbed

theorem save_nvm {k : Kept} {ev : Event} (h : ∀ x, ev = .devNonceUpdated x → x < 65536) :
    Kept.nvm (k.save ev) = (Kept.nvm k).store ev := by
  cases ev <;> first | rfl | skip
  rename_i x
  have hx : u16 x = x := Nat.mod_eq_of_lt (h x rfl)
  simp [Kept.save, Kept.nvm, Nvm.store, hx]

theorem saved_nvm : ∀ (l : List Event) (k : Kept), (∀ x, .devNonceUpdated x ∈ l → x < 65536) →
    Kept.nvm (saved k l) = (Kept.nvm k).after l ∧
    (savedStamps k l).map (fun x => (Kept.nvm x.1, x.2)) = stamps (Kept.nvm k) l := by
  intro l
  induction l with
  | nil => intro k _; exact ⟨rfl, rfl⟩
  | cons ev l ih =>
    intro k h
    have h1 : Kept.nvm (k.save ev) = (Kept.nvm k).store ev := save_nvm fun x hx => h x (by simp [hx])
    obtain ⟨h2, h3⟩ := ih (k.save ev) fun x hx => h x (by simp [hx])
    refine ⟨?_, ?_⟩
    · show Kept.nvm (saved (k.save ev) l) = _
      rw [h2, h1]; rfl
    · simp only [savedStamps, List.map_cons, stamps, List.cons.injEq, true_and]
      rw [h3, h1]

theorem mem_savedStamps {ev : Event} : ∀ (l : List Event) (k : Kept), ev ∈ l → ∃ k', (k', ev) ∈ savedStamps k l := by
  intro l
  induction l with
  | nil => intro k h; cases h
  | cons x l ih =>
    intro k h
    rcases List.mem_cons.1 h with rfl | h
    · exact ⟨k, by simp [savedStamps]⟩
    · obtain ⟨k', h⟩ := ih (k.save x) h
      exact ⟨k', by simp [savedStamps, h]⟩

theorem boot_arg (cfg : Cfg) (d : Device) (k : Kept) (e : Env) : startUp cfg d k e = d.boot cfg (Kept.nvm k) e := rfl

end Mbed

open Spec.Mbed Mbed

/-- **C81** (partial): as long as the last DevNonce has not been used up, a device whose storage is that of the mbed
wrapper lives as one whose application stores what the documentation asks for, over any number of restarts and power
losses: so C19 to C23 hold for it.
Missing: what happens when all DevNonces have been used, see `c81_nonces_start_over`. -/
theorem c81_storage_partial {cfg : Cfg} (hE : ∀ k, BlockFn (cfg.E k)) {d : Device} {m : Mac} {k : Kept}
    {log : List (Kept × Event)} (h : WrapperLife cfg d m k log)
    (hn : ∀ k', (k', Event.devNonceUpdated 65536) ∉ log) :
    Life cfg d m (Kept.nvm k) (log.map fun x => (Kept.nvm x.1, x.2)) := by
  induction h with
  | first k e hs hd ha => exact Life.first (d := d) (Kept.nvm k) e hs ha
  | @call m k log h e c hc hp ih =>
    have ih := ih fun k' hk => hn k' (List.mem_append_left _ hk)
    have hsmall : ∀ x, .devNonceUpdated x ∈ Spec.newEvents m (step cfg m e c).1 → x < 65536 := by
      intro x hx
      have h1 := (c21_never_wraps hE ih e c hc x hx).2
      rcases Nat.lt_or_ge x 65536 with h2 | h2
      · exact h2
      · have : x = 65536 := by omega
        subst this
        obtain ⟨k', hk⟩ := mem_savedStamps _ k hx
        exact absurd (List.mem_append_right _ hk) (hn k')
    obtain ⟨h1, h2⟩ := saved_nvm _ k hsmall
    rw [List.map_append, h1, h2]
    exact .call ih e c hc hp
  | @crash m k log h e c hc hp j e' ih =>
    have ih := ih fun k' hk => hn k' (List.mem_append_left _ hk)
    have hsmall : ∀ x, .devNonceUpdated x ∈ (Spec.newEvents m (step cfg m e c).1).take j → x < 65536 := by
      intro x hx
      have h1 := (c21_never_wraps hE ih e c hc x (List.mem_of_mem_take hx)).2
      rcases Nat.lt_or_ge x 65536 with h2 | h2
      · exact h2
      · have : x = 65536 := by omega
        subst this
        obtain ⟨k', hk⟩ := mem_savedStamps _ k hx
        exact absurd (List.mem_append_right _ hk) (hn k')
    obtain ⟨h1, h2⟩ := saved_nvm _ k hsmall
    rw [List.map_append, h2, boot_arg, h1]
    exact .crash ih e c hc hp j e'

theorem wrapperNonces_map (log : List (Kept × Event)) :
    wrapperNonces log = nonces (log.map fun x => (Kept.nvm x.1, x.2)) := by
  unfold wrapperNonces nonces
  rw [List.filterMap_map]
  rfl

/-- **C81** (partial): for instance, the DevNonces of all join requests are strictly increasing until the last one has
been used up. -/
theorem c81_nonces_partial {cfg : Cfg} (hE : ∀ k, BlockFn (cfg.E k)) (hv : cfg.version ≠ .v103) {d : Device} {m : Mac}
    {k : Kept} {log : List (Kept × Event)} (h : WrapperLife cfg d m k log)
    (hn : ∀ k', (k', Event.devNonceUpdated 65536) ∉ log) : (wrapperNonces log).Pairwise (· < ·) := by
  rw [wrapperNonces_map]
  exact c20_increasing hE hv (c81_storage_partial hE h hn)

namespace Demo

/-- A device with the storage of the wrapper. -/
structure Wrapped where
  m : Mac
  k : Kept
  log : List (Kept × Event)

def wrapped1 (cfg : Cfg) (d : Device) (s : Wrapped) : Happens → Wrapped
  | .call e c =>
    let l := Spec.newEvents s.m (step cfg s.m e c).1
    ⟨(step cfg s.m e c).1, saved s.k l, s.log ++ savedStamps s.k l⟩
  | .crash e c j e' =>
    let l := (Spec.newEvents s.m (step cfg s.m e c).1).take j
    ⟨startUp cfg d (saved s.k l) e', saved s.k l, s.log ++ savedStamps s.k l⟩

def wrapped (cfg : Cfg) (d : Device) (s : Wrapped) (l : List Happens) : Wrapped := l.foldl (wrapped1 cfg d) s

theorem wrapped_life {cfg : Cfg} {d : Device} (l : List Happens) (hl : ∀ x ∈ l, x.ok) {s : Wrapped}
    (h : WrapperLife cfg d s.m s.k s.log) :
    WrapperLife cfg d (wrapped cfg d s l).m (wrapped cfg d s l).k (wrapped cfg d s l).log := by
  induction l generalizing s with
  | nil => exact h
  | cons x l ih =>
    refine ih (fun y hy => hl y (by simp [hy])) ?_
    have hx := hl x (by simp)
    cases x with
    | call e c => exact .call h e c hx.1 hx.2
    | crash e c k e' => exact .crash h e c hx.1 hx.2 k e'

def wrappedAt (n : Nat) : Wrapped := ⟨startUp cfg device { devNonce := n } (at_ 0), { devNonce := n }, []⟩

theorem wrappedAt_life (n : Nat) (hn : n < 65536) : WrapperLife cfg device (wrappedAt n).m (wrappedAt n).k (wrappedAt n).log :=
  .first { devNonce := n } (at_ 0) rfl hn
    ⟨rfl, rfl, rfl, rfl, Nat.lt_of_lt_of_le hn (by decide), (by show 0 < 4294967296; decide)⟩

/-- Join requests before and after a power loss. -/
def twice : List Happens :=
  calls (boot ++ joining 20000) ++ [.crash (at_ 50000) .process 0 (at_ 0)] ++ calls (boot ++ joining 20000)

/-- What is claimed above, in the story of C20: three join requests. -/
example : wrapperNonces (wrapped cfg device (wrappedAt 0) story).log = [0, 1, 2] ∧
    ((wrapped cfg device (wrappedAt 0) story).log.all fun x => match x.2 with
      | .devNonceUpdated 65536 => false
      | _ => true) = true := by decide +kernel

end Demo

/-- **C81** does not hold without the condition: a device that has used the last DevNonce, 65535, stores 65536 in 16
bits, and after a restart begins again with 0.  (A device whose application stores 65536 refuses to join: `c21_refused`.) -/
theorem c81_nonces_start_over : ∃ m k log, WrapperLife Demo.cfg Demo.device m k log ∧
    wrapperNonces log = [65535, 0] :=
  ⟨_, _, _, Demo.wrapped_life Demo.twice (by decide +kernel) (Demo.wrappedAt_life 65535 (by decide)), by decide +kernel⟩

/-! ## C82 -/

/-- A thread does not call `cancel`. -/
def NoCancel : Act → Prop
  | .call _ m => m ≠ .cancel
  | _ => True

/-- What methods stand for, but that `cancel` stands for `forget`. -/
def cancelForgets : Method → Req
  | .cancel => .void .forget
  | m => meaning m

/-- **C82** (partial): any number of threads may use one `Device`.  Whatever the interleaving of threads, worker, timer and
interrupt: the calls of the MAC happen one after the other, each giving the answer it would give if a single
thread had made these calls in this order; each method calls the MAC for what it stands for, once, between its call and its
return, and returns that answer to its own caller (a blocking method may go on: see `follow`); and
the MAC is only ever in states that proper use of its API leads to, so C19 to C64 hold.
Missing: `cancel`, see `c82_cancel_drops_session`. -/
theorem c82_serial_partial {cfg : Cfg} {m0 : Mac} {s : Sys} (h : Reaches cfg NoCancel m0 s) :
    replay cfg m0 s.log = some s.mac ∧ (∀ t, phase meaning t s.log ≠ none) ∧ Reachable cfg s.mac := by
  have hi : Inv meaning cfg m0 s := reaches_inv (fun t m ho => by cases m <;> first | rfl | exact absurd rfl ho) h
  refine ⟨hi.replay, fun t => ?_, (reaches_reachable h).2⟩
  obtain ⟨p, hp, _⟩ := hi.phases t
  rw [hp]; nofun

/-- **C82**: with `cancel` the same holds, but that `cancel` does what `forget` does. -/
theorem c82_serial_cancel {cfg : Cfg} {m0 : Mac} {s : Sys} (h : Reaches cfg (fun _ => True) m0 s) :
    replay cfg m0 s.log = some s.mac ∧ (∀ t, phase cancelForgets t s.log ≠ none) ∧ Reachable cfg s.mac := by
  have hi : Inv cancelForgets cfg m0 s := reaches_inv (fun t m _ => by cases m <;> rfl) h
  refine ⟨hi.replay, fun t => ?_, (reaches_reachable h).2⟩
  obtain ⟨p, hp, _⟩ := hi.phases t
  rw [hp]; nofun

namespace Demo

/-- A step, if it can happen. -/
def attempt (cfg : Cfg) (s : Sys) (a : Act) : Sys := (s.act cfg a).getD s

def scene (cfg : Cfg) (s : Sys) (l : List Act) : Sys := l.foldl (attempt cfg) s

theorem scene_reaches {cfg : Cfg} {ok : Act → Prop} {m0 : Mac} {s : Sys} (h : Reaches cfg ok m0 s) (l : List Act)
    (hl : ∀ a ∈ l, Act.WF a ∧ ok a) : Reaches cfg ok m0 (scene cfg s l) := by
  induction l generalizing s with
  | nil => exact h
  | cons a l ih =>
    refine ih ?_ fun b hb => hl b (List.mem_cons_of_mem _ hb)
    obtain ⟨h1, h2⟩ := hl a (List.mem_cons_self ..)
    unfold attempt
    cases hs : s.act cfg a with
    | none => exact h
    | some s' => exact .act h a h1 h2 hs

instance (a : Act) : Decidable (Act.WF a) := by
  cases a <;> simp only [Act.WF] <;> try infer_instance
  rename_i t m
  cases m <;> simp only [] <;> infer_instance

instance (a : Act) : Decidable (NoCancel a) := by
  cases a <;> simp only [NoCancel] <;> infer_instance

instance (t : Nat) (a : Act) : Decidable (SoleUser t a) := by
  cases a <;> simp only [SoleUser] <;> infer_instance

def mbed : Sys := Sys.start cfg .eu868 {} (at_ 0)

theorem mbed_reaches (ok : Act → Prop) : Reaches cfg ok start mbed :=
  .start _ _ _ (by simp) ⟨rfl, rfl, rfl, rfl, by decide, by decide⟩ rfl

/-- The worker, as far as it gets. -/
def serve (e : Env) : List Act := List.replicate 40 (.worker e)

/-- A thread, as far as it gets. -/
def go (t : Nat) : List Act := List.replicate 8 (.thread t)

/-- A thread calls a method, and the worker serves it. -/
def use (t : Nat) (m : Method) (time : Nat) : List Act := [.call t m] ++ go t ++ serve (at_ time) ++ go t

/-- The wake-up timer. -/
def tick (time : Nat) : List Act := [.timer] ++ serve (at_ time)

/-- A radio interrupt. -/
def irq (e : Env) : List Act := [.radio e] ++ serve e

def unconfirmed : Method := .data false 1 (some [1, 2, 3]) 3 none

def bootUp : List Act := tick 0 ++ tick 1000 ++ tick 10000

def activated : List Act := bootUp ++ use 0 (.abp 1) 20000

/-- The radio cycle of a send request made at 30000. -/
def radioCycle : List Act :=
  tick 60000 ++ irq { now := 1530000, statusTx := true } ++ tick 2530000 ++ tick 2532000 ++
    irq { now := 2570000, statusTimeout := true } ++ tick 3530000 ++ tick 3532000 ++
    irq { now := 3570000, statusTimeout := true } ++ tick 6100000

/-- What the methods returned. -/
def returns (s : Sys) : List (Nat × Result) :=
  s.log.filterMap fun | .returned t _ r => some (t, r) | _ => none

/-- Three threads at once: thread 0 sends, thread 1 asks whether the device has joined, thread 2 for the data rate. -/
def busy : List Act :=
  activated ++ [.call 0 unconfirmed, .call 1 .joined, .call 2 .getRate, .thread 2, .thread 0, .thread 1] ++ go 2 ++
    serve (at_ 30000) ++ go 2 ++ go 1 ++ go 0 ++ serve (at_ 30000) ++ go 0 ++ go 1 ++ serve (at_ 30000) ++ go 0 ++ go 1 ++
    serve (at_ 30000) ++ radioCycle ++ go 0

theorem busy_reaches : Reaches cfg NoCancel start (scene cfg mbed busy) :=
  scene_reaches (mbed_reaches _) _ (by decide +kernel)

/-- All were answered. -/
example : returns (scene cfg mbed busy) = [(0, .answer (.status .ok)), (2, .answer (.num 0)), (1, .answer (.flag true)),
    (0, .answer (.status .ok))] := by decide +kernel

end Demo

/-- **C82** does not hold for `cancel`, which is documented to cancel the current operation: no operation is in progress, and
the device loses its session.  (`LDL_MAC_cancel` would do nothing.) -/
theorem c82_cancel_drops_session : ∃ l : List Act, (∀ a ∈ l, Act.WF a) ∧
    Reaches Demo.cfg (fun _ => True) Demo.start (Demo.scene Demo.cfg Demo.mbed l) ∧
    (Demo.scene Demo.cfg Demo.mbed l).mac.op = .none ∧
    (Demo.scene Demo.cfg Demo.mbed l).mac.ctx.joined = true ∧
    (Demo.scene Demo.cfg Demo.mbed (l ++ Demo.use 1 .cancel 30000)).mac.ctx.joined = false ∧
    (step Demo.cfg (Demo.scene Demo.cfg Demo.mbed l).mac (Demo.at_ 30000) .cancel).1.ctx.joined = true := by
  refine ⟨Demo.activated, by decide +kernel, Demo.scene_reaches (Demo.mbed_reaches _) _ ?_, by decide +kernel, by decide +kernel,
    by decide +kernel, by decide +kernel⟩
  intro a ha
  exact ⟨(show ∀ a ∈ Demo.activated, Act.WF a by decide +kernel) a ha, trivial⟩

/-! ## C83 -/

/-- **C83** (partial): requests are answered.  A thread has posted its request and waits for the answer.  Whatever the
interleaving with other threads, timer and interrupts, and however the clock goes: as long as the thread cannot go on, the worker
has taken fewer than 237 steps, and 237 more for each radio interrupt and for each time it found that the clock had moved.
Excepted are steps of the worker while a timer is at the edge of what the clock can express (see `c83_edge`). -/
theorem c83_answered_partial {cfg : Cfg} (ht : 512 ≤ cfg.tps ∧ cfg.tps ≤ 16000000) {ok : Act → Prop} {m0 : Mac} {s s' : Sys}
    (h : Reaches cfg ok m0 s) {t : Nat} {m : Method} {late : Bool} (hpc : (s.threads t).pc = .await m late) (T : Nat)
    (l : List Act) (hw : ∀ a ∈ l, Act.WF a) (hs : acts cfg s l = some s')
    (hno : ∀ l1 l2 s1, l = l1 ++ l2 → acts cfg s l1 = some s1 → s1.threadStep t = none)
    (hedge : ∀ l1 e l2 s1, l = l1 ++ .worker e :: l2 → acts cfg s l1 = some s1 → ¬OnEdge e.ticks s1.mac) :
    workerSteps l < 237 * (interrupts l + clockMoves T l + 1) := by
  obtain ⟨hf, hr⟩ := reaches_reachable h
  have hi : Inv Method.req cfg m0 s := reaches_inv (fun _ _ _ => rfl) h
  have hk := rank_le T s
  refine Decidable.byContradiction fun hn => ?_
  obtain ⟨l1, l2, s1, h1, h2, h3, h4⟩ := told ht l T s s' hi hf hr hpc hw hs (by omega)
  rcases h4 with h4 | ⟨e, l3, h4, h5⟩
  · have h5 := hno l1 l2 s1 h1 h2
    unfold Sys.threadStep at h5
    simp only [h3] at h5
    rw [if_pos h4] at h5; cases h5
  · exact hedge l1 e l3 s1 (by rw [h1, h4]) h2 h5

namespace Demo

/-- A thread asks whether the device is joined. -/
def asking : List Act := [.call 1 .joined] ++ go 1

end Demo

/-- **C83** needs the condition: the device is started and left alone for 2^31 - 1 ticks; then a thread asks something.
While the clock shows this, the worker does not get around to answering. -/
theorem c83_edge : Reaches Demo.cfg (fun _ => True) Demo.start (Demo.scene Demo.cfg Demo.mbed Demo.asking) ∧
    ((Demo.scene Demo.cfg Demo.mbed Demo.asking).threads 1).pc = .await .joined false ∧
    ∃ s', acts Demo.cfg (Demo.scene Demo.cfg Demo.mbed Demo.asking) (List.replicate 237 (.worker (Demo.at_ 2147483647))) = some s' ∧
      (s'.threads 1).pc = .await .joined false ∧ s'.threadStep 1 = none := by
  refine ⟨Demo.scene_reaches (Demo.mbed_reaches _) _ fun a ha =>
    ⟨(show ∀ a ∈ Demo.asking, Act.WF a by decide +kernel) a ha, trivial⟩, by decide +kernel, ?_⟩
  have h1 : (acts Demo.cfg (Demo.scene Demo.cfg Demo.mbed Demo.asking)
      (List.replicate 237 (.worker (Demo.at_ 2147483647)))).isSome = true := by decide +kernel
  have h2 : ∀ s' ∈ acts Demo.cfg (Demo.scene Demo.cfg Demo.mbed Demo.asking)
      (List.replicate 237 (.worker (Demo.at_ 2147483647))),
      (s'.threads 1).pc = .await .joined false ∧ (s'.threadStep 1).isNone = true := by decide +kernel
  obtain ⟨s', hs⟩ := Option.isSome_iff_exists.1 h1
  exact ⟨s', hs, (h2 s' hs).1, Option.isNone_iff_eq_none.1 (h2 s' hs).2⟩

/-- The same, but one tick later: the request is answered although the clock moved meanwhile. -/
example : Demo.returns (Demo.scene Demo.cfg Demo.mbed (Demo.asking ++ List.replicate 237 (.worker (Demo.at_ 2147483647)) ++
    Demo.serve (Demo.at_ 2147483648) ++ Demo.go 1)) = [(1, .answer (.flag false))] := by decide +kernel

/-- **C83** (partial): in particular, when the worker alone goes on, it answers within 237 steps. -/
theorem c83_alone_partial {cfg : Cfg} (ht : 512 ≤ cfg.tps ∧ cfg.tps ≤ 16000000) {ok : Act → Prop} {m0 : Mac} {s : Sys}
    (h : Reaches cfg ok m0 s) {t : Nat} {m : Method} {late : Bool} (hpc : (s.threads t).pc = .await m late) (T : Nat)
    (es : Nat → Env) (he : ∀ i, (es i).ticks = T ∧ (es i).later = T) :
    ∃ k ≤ 237, ∃ s1, acts cfg s ((List.range k).map fun i => .worker (es i)) = some s1 ∧
      ((s1.threadStep t).isSome = true ∨ OnEdge T s1.mac) := by
  obtain ⟨hf, hr⟩ := reaches_reachable h
  have hi : Inv Method.req cfg m0 s := reaches_inv (fun _ _ _ => rfl) h
  obtain ⟨k, hk, s1, h1, h2, h3⟩ := told_alone ht T 237 s es he hi hf hr hpc (rank_le T s)
  refine ⟨k, hk, s1, h1, ?_⟩
  rcases h3 with h3 | h3
  · left
    unfold Sys.threadStep
    simp only [h2]
    rw [if_pos h3]; rfl
  · exact Or.inr h3

/-- **C83**: and until then the worker can always take its next step. -/
theorem c83_worker {cfg : Cfg} {ok : Act → Prop} {m0 : Mac} {s : Sys} (h : Reaches cfg ok m0 s) {t : Nat} {m : Method}
    {late : Bool} (hpc : (s.threads t).pc = .await m late) (e : Env) :
    (s.threadStep t).isSome = true ∨ (s.workerStep cfg e).isSome = true := by
  have hi : Inv Method.req cfg m0 s := reaches_inv (fun _ _ _ => rfl) h
  by_cases hs : s.status > 0
  · left
    unfold Sys.threadStep
    simp only [hpc]
    rw [if_pos hs]; rfl
  · exact Or.inr (worker_goes_on hi hpc (by omega) e)

/-- **C83**: there is no deadlock.  While a thread is in a method, and does not wait for the end of an operation or for a
channel, some thread or the worker can take a step. -/
theorem c83_no_deadlock {cfg : Cfg} {ok : Act → Prop} {m0 : Mac} {s : Sys} (h : Reaches cfg ok m0 s) {t : Nat}
    (hi : (s.threads t).pc ≠ .idle) (hpc : ∀ m, (s.threads t).pc ≠ .outcome m ∧ (s.threads t).pc ≠ .band m) (e : Env) :
    (∃ u, (s.threadStep u).isSome = true) ∨ (s.workerStep cfg e).isSome = true :=
  no_deadlock (reaches_inv (mean := Method.req) (fun _ _ _ => rfl) h) hpc hi e

/-- A thread that waits, and the steps of the worker. -/
example : (∃ m late, ((Demo.scene Demo.cfg Demo.mbed (Demo.activated ++ [.call 1 .joined] ++ Demo.go 1)).threads 1).pc =
      .await m late) ∧
    ((Demo.scene Demo.cfg Demo.mbed (Demo.activated ++ [.call 1 .joined] ++ Demo.go 1)).threadStep 1).isSome = false ∧
    ((Demo.scene Demo.cfg Demo.mbed (Demo.activated ++ [.call 1 .joined] ++ Demo.go 1 ++
      Demo.serve (Demo.at_ 30000))).threadStep 1).isSome = true :=
  ⟨⟨.joined, false, by decide +kernel⟩, by decide +kernel, by decide +kernel⟩

/-! ## C84 -/

/-- **C84** (partial): a blocking method returns what became of its own operation: the refusal of the MAC; or CANCELLED,
ERROR, the value, OK, DEVNONCE or NOACK according to the event that ended the operation it started, and
not before; a send request displaced by MAC commands is repeated.
This is for programs in which one thread uses the blocking methods (others may use the rest), and never `otaa` with
a timeout.  See `c84_stale_flag`, `c84_lost_completion`, `c84_not_waiting` for what happens otherwise; and a send request
for which there is no channel is not sent: `c84_no_channel`. -/
theorem c84_outcome_partial {cfg : Cfg} {m0 : Mac} {t : Nat} {s : Sys} (h : Reaches cfg (SoleUser t) m0 s) :
    owed t s.log ≠ none := by
  obtain ⟨_, p, hp⟩ := reaches_owes (fun _ h => h) h
  rw [hp.log]; nofun

namespace Demo

/-- A send request, and its radio cycle. -/
def sent : List Act := activated ++ use 0 unconfirmed 30000 ++ radioCycle ++ go 0

theorem sent_reaches : Reaches cfg (SoleUser 0) start (scene cfg mbed sent) :=
  scene_reaches (mbed_reaches _) _ (by decide +kernel)

/-- The method returns with the radio cycle, not before. -/
example : returns (scene cfg mbed sent) = [(0, .answer (.status .ok)), (0, .answer (.status .ok))] ∧
    returns (scene cfg mbed (activated ++ use 0 unconfirmed 30000)) = [(0, .answer (.status .ok))] := by
  decide +kernel

/-- A send request cancelled by another thread. -/
def cancelled : List Act := activated ++ use 0 unconfirmed 30000 ++ use 1 .forget 40000 ++ go 0

example : returns (scene cfg mbed cancelled) = [(0, .answer (.status .ok)), (1, .answer .unit), (0, .cancelled)] := by
  decide +kernel

/-- `otaa` with a timeout, which passes; then `entropy`. -/
def stale : List Act :=
  bootUp ++ use 0 (.otaa true) 20000 ++ [.expire 0] ++ go 0 ++ serve (at_ 30000) ++ go 0 ++ use 0 .entropy 40000

/-- `entropy`, up to its end, which the thread has not noticed. -/
def entropyDone : List Act :=
  activated ++ use 0 .entropy 30000 ++ tick 40000 ++ tick 50000 ++ tick 60000 ++ tick 70000 ++ tick 80000

end Demo

/-- **C84** needs the conditions.  The flags of an operation that was given up are taken for those of the next: after
`otaa` has timed out, `entropy` returns CANCELLED, while its operation goes on. -/
theorem c84_stale_flag : Reaches Demo.cfg (fun _ => True) Demo.start (Demo.scene Demo.cfg Demo.mbed Demo.stale) ∧
    Demo.returns (Demo.scene Demo.cfg Demo.mbed Demo.stale) = [(0, .timeout), (0, .cancelled)] ∧
    (Demo.scene Demo.cfg Demo.mbed Demo.stale).mac.op = .entropy :=
  ⟨Demo.scene_reaches (Demo.mbed_reaches _) _ fun a ha =>
    ⟨(show ∀ a ∈ Demo.stale, Act.WF a by decide +kernel) a ha, trivial⟩, by decide +kernel, by decide +kernel⟩

/-- **C84** needs the conditions.  The operation of one thread has ended, and the thread could go on; another thread
starts an operation before it does, and it goes on waiting. -/
theorem c84_lost_completion :
    Reaches Demo.cfg NoCancel Demo.start (Demo.scene Demo.cfg Demo.mbed (Demo.entropyDone ++ Demo.use 1 Demo.unconfirmed 90000)) ∧
    (Demo.scene Demo.cfg Demo.mbed Demo.entropyDone).mac.op = .none ∧
    ((Demo.scene Demo.cfg Demo.mbed Demo.entropyDone).threadStep 0).isSome = true ∧
    ((Demo.scene Demo.cfg Demo.mbed Demo.entropyDone).threads 0).pc = .outcome .entropy ∧
    ((Demo.scene Demo.cfg Demo.mbed (Demo.entropyDone ++ Demo.use 1 Demo.unconfirmed 90000)).threadStep 0).isSome = false ∧
    ((Demo.scene Demo.cfg Demo.mbed (Demo.entropyDone ++ Demo.use 1 Demo.unconfirmed 90000)).threads 0).pc =
      .outcome .entropy := by
  refine ⟨Demo.scene_reaches (Demo.mbed_reaches _) _ (by decide +kernel), ?_⟩
  decide +kernel

/-- **C84** needs the conditions.  A data method called while another thread is in one does not wait, as the methods are
documented to, but returns TIMEOUT. -/
theorem c84_not_waiting :
    Reaches Demo.cfg NoCancel Demo.start
      (Demo.scene Demo.cfg Demo.mbed (Demo.activated ++ Demo.use 0 Demo.unconfirmed 30000 ++ Demo.use 1 Demo.unconfirmed 40000)) ∧
    Demo.returns
      (Demo.scene Demo.cfg Demo.mbed (Demo.activated ++ Demo.use 0 Demo.unconfirmed 30000 ++ Demo.use 1 Demo.unconfirmed 40000)) =
      [(0, .answer (.status .ok)), (1, .timeout)] :=
  ⟨Demo.scene_reaches (Demo.mbed_reaches _) _ (by decide +kernel), by decide +kernel⟩

/-- Documented: "This method will block until a radio band is available. Once a band becomes available it will continue to
block until the service has completed".  It waits for the band, and then returns NOCHANNEL: the last method called has returned,
a channel is available, no operation has been started, and one frame (of the send request before) has been transmitted. -/
theorem c84_no_channel :
    let before := Demo.scene Demo.cfg Demo.mbed (Demo.sent ++ Demo.use 0 Demo.unconfirmed 6200000)
    let after := Demo.scene Demo.cfg Demo.mbed (Demo.sent ++ Demo.use 0 Demo.unconfirmed 6200000 ++ Demo.tick 130000000 ++ Demo.go 0)
    Reaches Demo.cfg (SoleUser 0) Demo.start after ∧
    (before.threads 0).pc = .band Demo.unconfirmed ∧
    Demo.returns after = [(0, .answer (.status .ok)), (0, .answer (.status .ok)), (0, .answer (.status .noChannel))] ∧
    LDL.ready after.mac = true ∧ after.mac.op = .none ∧
    (transmitted after.mac.out).length = 1 := by
  refine ⟨Demo.scene_reaches (Demo.mbed_reaches _) _ (by decide +kernel), ?_⟩
  decide +kernel

/-! ## C85 -/

/-- **C85** (partial): processing comes to rest.  From any reachable state, `LDL_MAC_process` called again and again at the
same time, as the wrapper does while `LDL_MAC_ticksUntilNextEvent` returns 0, needs at most 115 calls until
that returns something else, unless a timer is at the edge of what the clock can express (see `c85_edge`). -/
theorem c85_rest_partial {cfg : Cfg} (ht : 512 ≤ cfg.tps ∧ cfg.tps ≤ 16000000) {m : Mac} (hr : Reachable cfg m) (T : Nat)
    (es : Nat → Env) (he : ∀ i, (es i).ticks = T ∧ (es i).later = T) :
    ∃ k ≤ 115, ticksUntilNextEvent (es k) (processed cfg es k m) ≠ 0 ∨ OnEdge T (processed cfg es k m) :=
  comes_to_rest ht T 115 m es he hr (reasons_le T m)

/-- It comes to rest after a send request: one call is needed. -/
example : ticksUntilNextEvent (Demo.at_ 30000) (run Demo.cfg Demo.joined [Demo.send true 30000]) = 0 ∧
    ticksUntilNextEvent (Demo.at_ 30000)
      (processed Demo.cfg (fun _ => Demo.at_ 30000) 1 (run Demo.cfg Demo.joined [Demo.send true 30000])) ≠ 0 := by
  decide +kernel

/-- **C85** needs the condition: the device is started and left alone for 2^31 - 1 ticks.  At that time the MAC asks to be
processed, but does nothing when it is. -/
theorem c85_edge : Reachable Demo.cfg Demo.start ∧
    (∀ k ≤ 115, ticksUntilNextEvent (Demo.at_ 2147483647)
      (processed Demo.cfg (fun _ => Demo.at_ 2147483647) k Demo.start) = 0 ∧
      (processed Demo.cfg (fun _ => Demo.at_ 2147483647) k Demo.start).out = []) :=
  ⟨Demo.start_reachable, by decide +kernel⟩

end LDL
