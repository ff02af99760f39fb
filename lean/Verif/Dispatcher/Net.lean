import Verif.Dispatcher.Parent

/-! # Parent and children together

The processes of a run (`main`, dispatcher.py:320-337): one parent (`do_parent`, dispatcher.py:156-246) and `w` children
(`do_child`, dispatcher.py:249-300), connected by MPI messages.  The two loops are modelled one by one elsewhere; here
they run interleaved, each step of a process being one step of the system, in any order.

A blocking send may return as soon as the message is on its way, or only when it has been received; MPI leaves this to
the implementation, and both are covered (`eager`).  Messages between two processes arrive in order.  Not modelled:
failures of MPI, sizes of messages, the limit on tags. -/

set_option autoImplicit false

namespace Forcepho.Dispatcher.Net

open Forcepho.SuperScene

variable {K B C : Type}

/-- An answer: the new parameters of the active sources and the covariances (dispatcher.py:294). -/
abbrev Rep (K C : Type) := List (Params K) × Option (List C)

/-- Where a child is in its event loop (dispatcher.py:271-298): before `comm.recv`, at work on a task with its tag, after
its answer was handed to `comm.send`, out of the loop, or ended by an exception. -/
inductive Child (K : Type)
  | recv
  | work (t : Nat × Held K)
  | sent
  | stopped
  | dead

/-- Where the parent is (dispatcher.py:190-246): at the `while`, in the `send` of `submit`, in `collect`, in the last
`collect`, before the `send` number `k` of `closeout`, in it, finished; ended by an exception of a checkout; ended by
any other exception. -/
inductive PC
  | top
  | sent (c : Nat)
  | collect (got : Bool)
  | drain
  | close (k : Nat)
  | closing (k : Nat)
  | done
  | failed (e : Err)
  | crashed

/-- The environment: whether sends return early, which answers the work function may give, and when it may raise. -/
structure World (K C : Type) where
  eager : Bool
  works : Held K → Rep K C → Prop
  fails : Held K → Prop

/-- The messages from the parent to a child, those from the child to the parent, and the state of the child. -/
structure Lane (K C : Type) where
  fwd : List (Option (Nat × Held K))
  back : List (Nat × Rep K C)
  ch : Child K

/-- The whole system. -/
structure Net (K B C : Type) where
  p : Parent K B C
  pc : PC
  lane : Nat → Lane K C

/-- One step of a child (dispatcher.py:271-298). -/
inductive LStep (W : World K C) : Lane K C → Lane K C → Prop
  /-- lines 272-276: a task is received -/
  | task (t : Nat × Held K) (f : List (Option (Nat × Held K))) (b : List (Nat × Rep K C)) :
      LStep W ⟨some t :: f, b, .recv⟩ ⟨f, b, .work t⟩
  /-- lines 277-280: the shutdown message is received -/
  | stop (f : List (Option (Nat × Held K))) (b : List (Nat × Rep K C)) :
      LStep W ⟨none :: f, b, .recv⟩ ⟨f, b, .stopped⟩
  /-- lines 282-295: the work is done and the answer sent with the tag of the task -/
  | answer (t : Nat × Held K) (r : Rep K C) (f : List (Option (Nat × Held K))) (b : List (Nat × Rep K C)) :
      W.works t.2 r → LStep W ⟨f, b, .work t⟩ ⟨f, b ++ [(t.1, r)], .sent⟩
  /-- lines 283-291: an exception -/
  | raise (t : Nat × Held K) (f : List (Option (Nat × Held K))) (b : List (Nat × Rep K C)) :
      W.fails t.2 → LStep W ⟨f, b, .work t⟩ ⟨f, b, .dead⟩
  /-- lines 295-298: the send returns and the memory is freed -/
  | free (f : List (Option (Nat × Held K))) (b : List (Nat × Rep K C)) :
      (W.eager = true ∨ b = []) → LStep W ⟨f, b, .sent⟩ ⟨f, b, .recv⟩

/-- Change one lane. -/
def put {α : Type} (f : Nat → α) (c : Nat) (v : α) : Nat → α := fun x => if x = c then v else f x

/-- The answer `r` to the `i`-th posted receive has arrived: the receive names the child and the tag
(dispatcher.py:137). -/
def Arrived (n : Net K B C) (i : Nat) (r : Rep K C) : Prop :=
  ∃ c t rest, n.p.q.handles[i]? = some (c, t) ∧ (n.lane c).back = (t.1, r) :: rest

/-- The lanes after the answers of the children `cs` were received. -/
def take (n : Net K B C) (cs : List Nat) : Nat → Lane K C :=
  fun c => if c ∈ cs then { n.lane c with back := (n.lane c).back.tail } else n.lane c

section
variable [CommRing K] [LinearOrder K]

/-- One step of the system with `w` children. -/
inductive Step (E : Env K) (cfg : Config K) (draws : Int) (W : World K C) (w : Nat) : Net K B C → Net K B C → Prop
  /-- dispatcher.py:191-217: a region was granted and its task handed to `comm.send` -/
  | propose {n : Net K B C} {p1 : Parent K B C} (seeds : List Nat) (c : Nat) (t : Nat × Held K) : n.pc = .top →
      undone cfg n.p.sup = true → seeds ≠ [] → propose E cfg n.p ⟨seeds, none, []⟩ = (p1, .ok true) →
      p1.q.sent = n.p.q.sent ++ [(c, some t)] →
      Step E cfg draws W w n
        ⟨p1, .sent c, put n.lane c { n.lane c with fwd := (n.lane c).fwd ++ [some t] }⟩
  /-- no region was granted -/
  | refuse {n : Net K B C} {p1 : Parent K B C} (seeds : List Nat) : n.pc = .top →
      undone cfg n.p.sup = true → seeds ≠ [] → propose E cfg n.p ⟨seeds, none, []⟩ = (p1, .ok false) →
      Step E cfg draws W w n ⟨p1, .collect false, n.lane⟩
  /-- a checkout raised -/
  | fail {n : Net K B C} {p1 : Parent K B C} (seeds : List Nat) (e : Err) : n.pc = .top →
      undone cfg n.p.sup = true → seeds ≠ [] → propose E cfg n.p ⟨seeds, none, []⟩ = (p1, .error (.scene e)) →
      Step E cfg draws W w n ⟨p1, .failed e, n.lane⟩
  /-- `submit` raised -/
  | crashSubmit {n : Net K B C} {p1 : Parent K B C} (seeds : List Nat) (e : QErr) : n.pc = .top →
      undone cfg n.p.sup = true → seeds ≠ [] → propose E cfg n.p ⟨seeds, none, []⟩ = (p1, .error (.queue e)) →
      Step E cfg draws W w n ⟨p1, .crashed, n.lane⟩
  /-- dispatcher.py:134: the send returns -/
  | go {n : Net K B C} (c : Nat) : n.pc = .sent c → (W.eager = true ∨ (n.lane c).fwd = []) →
      Step E cfg draws W w n ⟨n.p, .collect true, n.lane⟩
  /-- dispatcher.py:222-230: some of the answers that have arrived are received and checked in -/
  | collect {n : Net K B C} {p2 : Parent K B C} (got : Bool) (idx : List Nat) (reps : List (Rep K C)) :
      n.pc = .collect got → Legal n.p.q (blockingOf n.p got) (some idx) → List.Forall₂ (Arrived n) idx reps →
      absorb draws n.p got ⟨[], some idx, reps⟩ = (p2, none) →
      Step E cfg draws W w n ⟨p2, .top, take n (idx.filterMap fun i => (n.p.q.handles[i]?).map (·.1))⟩
  /-- `collect` or a check-in raised -/
  | crashCollect {n : Net K B C} {p2 : Parent K B C} (got : Bool) (idx : List Nat) (reps : List (Rep K C)) (e : PErr) :
      n.pc = .collect got → Legal n.p.q (blockingOf n.p got) (some idx) → List.Forall₂ (Arrived n) idx reps →
      absorb draws n.p got ⟨[], some idx, reps⟩ = (p2, some e) → Step E cfg draws W w n ⟨p2, .crashed, n.lane⟩
  /-- `testsome` without posted receives -/
  | crashNone {n : Net K B C} {p2 : Parent K B C} (got : Bool) (e : PErr) :
      n.pc = .collect got → n.p.q.handles = [] → Legal n.p.q (blockingOf n.p got) none →
      absorb draws n.p got ⟨[], none, []⟩ = (p2, some e) → Step E cfg draws W w n ⟨p2, .crashed, n.lane⟩
  /-- dispatcher.py:190: the targets are met -/
  | leave {n : Net K B C} : n.pc = .top → undone cfg n.p.sup = false → Step E cfg draws W w n ⟨n.p, .drain, n.lane⟩
  /-- dispatcher.py:233, 246 and 142-148: all answers are received, and `closeout` finds all children idle -/
  | drain {n : Net K B C} {p2 : Parent K B C} (res : List (Nat × Held K)) : n.pc = .drain →
      (∀ x ∈ n.p.q.handles, ∃ r rest, (n.lane x.1).back = (x.2.1, r) :: rest) → finish n.p = (p2, .ok res) →
      Step E cfg draws W w n ⟨p2, .close 1, take n (n.p.q.handles.map (·.1))⟩
  /-- the last `collect` or `closeout` raised -/
  | crashDrain {n : Net K B C} {p2 : Parent K B C} (e : PErr) : n.pc = .drain →
      (∀ x ∈ n.p.q.handles, ∃ r rest, (n.lane x.1).back = (x.2.1, r) :: rest) → finish n.p = (p2, .error e) →
      Step E cfg draws W w n ⟨p2, .crashed, n.lane⟩
  /-- dispatcher.py:152-153: a shutdown message is handed to `comm.send` -/
  | poison {n : Net K B C} (k : Nat) : n.pc = .close k → k ≤ n.p.q.n →
      Step E cfg draws W w n
        ⟨n.p, .closing k, put n.lane k { n.lane k with fwd := (n.lane k).fwd ++ [none] }⟩
  /-- the send returns -/
  | poisoned {n : Net K B C} (k : Nat) : n.pc = .closing k → (W.eager = true ∨ (n.lane k).fwd = []) →
      Step E cfg draws W w n ⟨n.p, .close (k + 1), n.lane⟩
  /-- all shutdown messages are sent -/
  | finish {n : Net K B C} (k : Nat) : n.pc = .close k → n.p.q.n < k → Step E cfg draws W w n ⟨n.p, .done, n.lane⟩
  /-- a child makes a step -/
  | child {n : Net K B C} (c : Nat) (l : Lane K C) : c ∈ List.range' 1 w → LStep W (n.lane c) l →
      Step E cfg draws W w n ⟨n.p, n.pc, put n.lane c l⟩

end

/-- All processes at the start of their loops. -/
def init (s : State K B C) (w : Nat) : Net K B C := ⟨start s w, .top, fun _ => ⟨[], [], .recv⟩⟩

/-- The step begins a pass of the parent's loop. -/
def Begins (n n' : Net K B C) : Prop :=
  n.pc = .top ∧ ((∃ c, n'.pc = .sent c) ∨ n'.pc = .collect false)

/-- Runs: the number of steps and of passes begun. -/
inductive Run [CommRing K] [LinearOrder K] (E : Env K) (cfg : Config K) (draws : Int) (W : World K C) (w : Nat)
    (n0 : Net K B C) : Nat → Nat → Net K B C → Prop
  | nil : Run E cfg draws W w n0 0 0 n0
  | pass {k j : Nat} {n n' : Net K B C} : Run E cfg draws W w n0 k j n → Step E cfg draws W w n n' → Begins n n' →
      Run E cfg draws W w n0 (k + 1) (j + 1) n'
  | other {k j : Nat} {n n' : Net K B C} : Run E cfg draws W w n0 k j n → Step E cfg draws W w n n' → ¬ Begins n n' →
      Run E cfg draws W w n0 (k + 1) j n'

/-! ## Invariants of one lane -/

/-- The child can be given work: no message either way. -/
def IdleL (l : Lane K C) : Prop := l.fwd = [] ∧ l.back = [] ∧ (l.ch = .recv ∨ l.ch = .sent)

/-- The child has task `t`: it is on its way, being worked on, or answered. -/
def BusyL (W : World K C) (t : Nat × Held K) (l : Lane K C) : Prop :=
  (l.fwd = [some t] ∧ l.back = [] ∧ (l.ch = .recv ∨ l.ch = .sent)) ∨
  (l.fwd = [] ∧ l.back = [] ∧ l.ch = .work t) ∨
  (l.fwd = [] ∧ (∃ r, W.works t.2 r ∧ l.back = [(t.1, r)]) ∧ (l.ch = .recv ∨ l.ch = .sent))

/-- The child is told to stop, or has stopped. -/
def StopL (l : Lane K C) : Prop :=
  l.back = [] ∧ ((l.fwd = [none] ∧ (l.ch = .recv ∨ l.ch = .sent)) ∨ (l.fwd = [] ∧ l.ch = .stopped))

theorem idleL_step (W : World K C) (l l' : Lane K C) (h : LStep W l l') (hi : IdleL l) : IdleL l' := by
  obtain ⟨h1, h2, h3⟩ := hi
  cases h with
  | task t f b => simp at h1
  | stop f b => simp at h1
  | answer t r f b _ => simp at h3
  | raise t f b _ => simp at h3
  | free f b _ => exact ⟨h1, h2, Or.inl rfl⟩

theorem stopL_step (W : World K C) (l l' : Lane K C) (h : LStep W l l') (hi : StopL l) : StopL l' := by
  obtain ⟨h0, ⟨h1, h2⟩ | ⟨h1, h2⟩⟩ := hi
  · cases h with
    | task t f b => simp at h1
    | stop f b =>
      simp only [List.cons.injEq, true_and] at h1
      exact ⟨h0, Or.inr ⟨h1, rfl⟩⟩
    | answer t r f b _ => simp at h2
    | raise t f b _ => simp at h2
    | free f b _ => exact ⟨h0, Or.inl ⟨h1, Or.inl rfl⟩⟩
  · cases h with
    | task t f b => cases h2
    | stop f b => cases h2
    | answer t r f b _ => cases h2
    | raise t f b _ => cases h2
    | free f b _ => cases h2

theorem busyL_step (W : World K C) (hW : ∀ h, ¬ W.fails h) (t : Nat × Held K) (l l' : Lane K C) (h : LStep W l l')
    (hi : BusyL W t l) : BusyL W t l' := by
  rcases hi with ⟨h1, h2, h3⟩ | ⟨h1, h2, h3⟩ | ⟨h1, h2, h3⟩
  · cases h with
    | task t' f b =>
      simp only [List.cons.injEq, Option.some.injEq] at h1
      obtain ⟨rfl, h1⟩ := h1
      exact Or.inr (Or.inl ⟨h1, h2, rfl⟩)
    | stop f b => simp at h1
    | answer t r f b _ => simp at h3
    | raise t f b _ => simp at h3
    | free f b _ => exact Or.inl ⟨h1, h2, Or.inl rfl⟩
  · cases h with
    | task t' f b => cases h3
    | stop f b => cases h3
    | answer t' r f b hw =>
      simp only [Child.work.injEq] at h3
      subst h3
      simp only at h2
      exact Or.inr (Or.inr ⟨h1, ⟨r, hw, by simp [h2]⟩, Or.inr rfl⟩)
    | raise t f b hf => exact absurd hf (hW _)
    | free f b _ => cases h3
  · cases h with
    | task t' f b => simp at h1
    | stop f b => simp at h1
    | answer t r f b _ => simp at h3
    | raise t f b _ => simp at h3
    | free f b _ => exact Or.inr (Or.inr ⟨h1, h2, Or.inl rfl⟩)

/-- A busy child can make a step unless its answer has arrived. -/
theorem busyL_live (W : World K C) (hW : ∀ h : Held K, ∃ r, W.works h r) (t : Nat × Held K) (l : Lane K C)
    (h : BusyL W t l) : (∃ r, W.works t.2 r ∧ l.back = [(t.1, r)]) ∨ ∃ l', LStep W l l' := by
  obtain ⟨f, b, s⟩ := l
  rcases h with ⟨h1, h2, h3⟩ | ⟨h1, h2, h3⟩ | ⟨h1, h2, h3⟩
  · simp only at h1 h2 h3
    subst h1 h2
    rcases h3 with rfl | rfl
    · exact Or.inr ⟨_, LStep.task _ _ _⟩
    · exact Or.inr ⟨_, LStep.free _ _ (Or.inr rfl)⟩
  · simp only at h1 h2 h3
    subst h1 h2 h3
    obtain ⟨r, hr⟩ := hW t.2
    exact Or.inr ⟨_, LStep.answer t r _ _ hr⟩
  · exact Or.inl h2

/-- A child that is told to stop can make a step until it has stopped. -/
theorem stopL_live (W : World K C) (l : Lane K C) (h : StopL l) :
    (l.fwd = [] ∧ l.ch = .stopped) ∨ ∃ l', LStep W l l' := by
  obtain ⟨f, b, s⟩ := l
  obtain ⟨h0, ⟨h1, h2⟩ | h⟩ := h
  · simp only at h0 h1 h2
    subst h0 h1
    rcases h2 with rfl | rfl
    · exact Or.inr ⟨_, LStep.stop _ _⟩
    · exact Or.inr ⟨_, LStep.free _ _ (Or.inr rfl)⟩
  · exact Or.inl h

/-- What a child may still do before it waits. -/
def laneM (l : Lane K C) : Nat :=
  4 * l.fwd.length + match l.ch with
    | .work _ => 3
    | .sent => 1
    | _ => 0

theorem laneM_step (W : World K C) (l l' : Lane K C) (h : LStep W l l') : laneM l' + 1 ≤ laneM l := by
  cases h <;> simp [laneM] <;> omega

/-! ## The invariant of the system -/

section
variable [CommRing K] [LinearOrder K] {E : Env K} {cfg : Config K} {draws : Int} {W : World K C} {w : Nat}

/-- The shutdown message to `c` has been handed to `comm.send`. -/
def Told : PC → Nat → Prop
  | .close k, c => c < k
  | .closing k, c => c ≤ k
  | .done, _ => True
  | _, _ => False

/-- What the parent has done so far. -/
def PcInv (E : Env K) (cfg : Config K) (draws : Int) (m w : Nat) (p0 p : Parent K B C) : PC → Prop
  | .top => Loop E cfg draws p0 p
  | .sent c => ∃ p1 seeds, Loop E cfg draws p0 p1 ∧ undone cfg p1.sup = true ∧ seeds ≠ [] ∧
      propose E cfg p1 ⟨seeds, none, []⟩ = (p, .ok true) ∧ PInv1 m w p ∧ ∃ t, (c, t) ∈ p.q.handles
  | .collect got => ∃ p1 seeds, Loop E cfg draws p0 p1 ∧ undone cfg p1.sup = true ∧ seeds ≠ [] ∧
      propose E cfg p1 ⟨seeds, none, []⟩ = (p, .ok got) ∧ PInv1 m w p
  | .drain => Loop E cfg draws p0 p ∧ undone cfg p.sup = false
  | .close k => 1 ≤ k ∧ k ≤ w + 1 ∧ p.q.handles = [] ∧
      ∃ p1 res, Loop E cfg draws p0 p1 ∧ undone cfg p1.sup = false ∧ finish p1 = (p, .ok res)
  | .closing k => 1 ≤ k ∧ k ≤ w ∧ p.q.handles = [] ∧
      ∃ p1 res, Loop E cfg draws p0 p1 ∧ undone cfg p1.sup = false ∧ finish p1 = (p, .ok res)
  | .done => p.q.handles = [] ∧
      ∃ p1 res, Loop E cfg draws p0 p1 ∧ undone cfg p1.sup = false ∧ finish p1 = (p, .ok res)
  | .failed e => ∃ p1 seeds, Loop E cfg draws p0 p1 ∧ undone cfg p1.sup = true ∧ seeds ≠ [] ∧
      propose E cfg p1 ⟨seeds, none, []⟩ = (p, .error (.scene e))
  | .crashed => False

/-- The invariant of the system. -/
structure NInv (E : Env K) (cfg : Config K) (draws : Int) (W : World K C) (m w : Nat) (p0 : Parent K B C)
    (n : Net K B C) : Prop where
  q : QInv w n.p.q
  busy : ∀ x ∈ n.p.q.handles, BusyL W x.2 (n.lane x.1)
  idle : ∀ c ∈ n.p.q.idle, (Told n.pc c → StopL (n.lane c)) ∧ (¬ Told n.pc c → IdleL (n.lane c))
  pc : PcInv E cfg draws m w p0 n.p n.pc


omit [CommRing K] [LinearOrder K] in
theorem put_same {α : Type} (f : Nat → α) (c : Nat) (v : α) : put f c v c = v := by simp [put]

omit [CommRing K] [LinearOrder K] in
theorem put_other {α : Type} (f : Nat → α) (c x : Nat) (v : α) (h : x ≠ c) : put f c v x = f x := by simp [put, h]

omit [CommRing K] [LinearOrder K] in
/-- Waiting for some, or testing, uses the indices found. -/
theorem collect_some {α : Type} (q : Queue α) (H : QInv w q) (b : Blocking) (idx : List Nat) (hb : b ≠ .all)
    (hh : q.handles ≠ []) (hL : Legal q b (some idx)) :
    idx.Nodup ∧ (∀ i ∈ idx, i < q.handles.length) ∧ ∃ q',
      collect q b (some idx) = (q', .ok (idx.filterMap fun i => (q.handles[i]?).map (·.2))) ∧ QInv w q' ∧
      (∃ freed, q'.idle = q.idle ++ freed ∧ freed.Perm ((idx.filterMap fun i => q.handles[i]?).map (·.1))) ∧
      q.handles.Perm ((idx.filterMap fun i => q.handles[i]?) ++ q'.handles) := by
  have h0 : q.handles.length ≠ 0 := by simpa using hh
  have key : idx.Nodup ∧ ∀ i ∈ idx, i < q.handles.length := by
    cases b with
    | all => exact absurd rfl hb
    | one =>
      obtain ⟨l, h1, h2, h3, h4⟩ := hL hh
      cases h1
      exact ⟨h3, h4⟩
    | no =>
      obtain ⟨l, h1, h3, h4⟩ := hL.2 hh
      cases h1
      exact ⟨h3, h4⟩
  obtain ⟨q', e1, e2, e3, e4, e5, e6⟩ := collect_idx q H idx key.1 key.2
  refine ⟨key.1, key.2, q', ?_, e3, e5, e6⟩
  simp [collect, h0, hb, e1, e2]

omit [CommRing K] [LinearOrder K] in
/-- A busy child whose answer has arrived. -/
theorem busy_arrived (t : Nat × Held K) (l : Lane K C) (tag : Nat) (r : Rep K C) (rest : List (Nat × Rep K C))
    (h : BusyL W t l) (hb : l.back = (tag, r) :: rest) :
    tag = t.1 ∧ rest = [] ∧ W.works t.2 r ∧ l.fwd = [] ∧ (l.ch = .recv ∨ l.ch = .sent) := by
  rcases h with ⟨_, h2, _⟩ | ⟨_, h2, _⟩ | ⟨h1, ⟨r', hw, h2⟩, h3⟩
  · rw [h2] at hb; cases hb
  · rw [h2] at hb; cases hb
  · rw [h2] at hb
    simp only [List.cons.injEq, Prod.mk.injEq] at hb
    obtain ⟨⟨rfl, rfl⟩, rfl⟩ := hb
    exact ⟨rfl, rfl, hw, h1, h3⟩

omit [CommRing K] [LinearOrder K] in
/-- The answers received fit the regions. -/
theorem arrived_fit (hlen : ∀ h r, W.works h r → r.1.length = h.active.length) (n : Net K B C)
    (hb : ∀ x ∈ n.p.q.handles, BusyL W x.2 (n.lane x.1)) (idx : List Nat) (reps : List (Rep K C))
    (hA : List.Forall₂ (Arrived n) idx reps) :
    List.Forall₂ (fun (r : Nat × Held K) (rep : Rep K C) => rep.1.length = r.2.active.length)
      (idx.filterMap fun i => (n.p.q.handles[i]?).map (·.2)) reps := by
  induction hA with
  | nil => exact List.Forall₂.nil
  | @cons i r idx reps h _ ih =>
    obtain ⟨c, t, rest, h1, h2⟩ := h
    simp only [List.filterMap_cons, h1, Option.map_some]
    have := busy_arrived _ _ _ _ _ (hb (c, t) (List.mem_of_getElem? h1)) h2
    exact List.Forall₂.cons (hlen _ _ this.2.2.1) ih

/-- Receiving arrived answers succeeds and completes the pass. -/
theorem absorb_ok {m : Nat} (hE : E.OK m) (hlen : ∀ h r, W.works h r → r.1.length = h.active.length)
    (n : Net K B C) (hb : ∀ x ∈ n.p.q.handles, BusyL W x.2 (n.lane x.1)) (p1 : Parent K B C) (seeds : List Nat)
    (H : PInv m w p1) (hs : seeds ≠ []) (got : Bool)
    (hp : propose E cfg p1 ⟨seeds, none, []⟩ = (n.p, .ok got)) (H1 : PInv1 m w n.p) (idx : List Nat)
    (reps : List (Rep K C)) (hL : Legal n.p.q (blockingOf n.p got) (some idx))
    (hA : List.Forall₂ (Arrived n) idx reps) :
    ∃ p2, absorb draws n.p got ⟨[], some idx, reps⟩ = (p2, none) ∧ PInv m w p2 ∧
      LegalIn E cfg p1 ⟨seeds, some idx, reps⟩ ∧ pass E cfg draws p1 ⟨seeds, some idx, reps⟩ = (p2, none) ∧
      collect n.p.q (blockingOf n.p got) (some idx) =
        (p2.q, .ok (idx.filterMap fun i => (n.p.q.handles[i]?).map (·.2))) := by
  have hball : blockingOf n.p got ≠ .all := by unfold blockingOf; split <;> simp
  obtain ⟨_, _, q', hc, _⟩ := collect_some n.p.q H1.queue _ idx hball H1.out hL
  have hp' : propose E cfg p1 ⟨seeds, some idx, reps⟩ = (n.p, .ok got) := hp
  have hLI : LegalIn E cfg p1 ⟨seeds, some idx, reps⟩ := by
    refine ⟨hs, ?_⟩
    intro p1' got' h
    rw [hp'] at h
    simp only [Prod.mk.injEq, Except.ok.injEq] at h
    obtain ⟨rfl, rfl⟩ := h
    refine ⟨hL, ?_⟩
    intro q'' res hc'
    rw [hc] at hc'
    simp only [Prod.mk.injEq, Except.ok.injEq] at hc'
    obtain ⟨_, rfl⟩ := hc'
    exact arrived_fit hlen n hb idx reps hA
  rcases pass_spec (draws := draws) hE p1 H _ hLI with ⟨e, h, _⟩ | ⟨p2, h, H2, _⟩
  · rw [hp'] at h; cases h
  · have ha : absorb draws n.p got ⟨seeds, some idx, reps⟩ = (p2, none) := by
      simpa only [pass, hp'] using h
    have hq : p2.q = q' := by
      simp only [absorb, hc] at ha
      split at ha
      · cases ha
      · simp only [Prod.mk.injEq, and_true] at ha
        rw [← ha]
    exact ⟨p2, ha, H2, hLI, h, by rw [hq]; exact hc⟩

/-- A granted region: the first idle child gets the task. -/
theorem propose_true {m : Nat} (hE : E.OK m) (p p1 : Parent K B C) (H : PInv m w p) (seeds : List Nat)
    (hs : seeds ≠ []) (h : propose E cfg p ⟨seeds, none, []⟩ = (p1, .ok true)) :
    PInv1 m w p1 ∧ ∃ c t rest, p.q.idle = c :: rest ∧ p1.q.idle = rest ∧ p1.q.handles = p.q.handles ++ [(c, t)] ∧
      p1.q.sent = p.q.sent ++ [(c, some t)] := by
  refine ⟨?_, ?_⟩
  · rcases propose_spec (cfg := cfg) hE p H ⟨seeds, none, []⟩ hs with ⟨e, h'⟩ | ⟨h', _⟩ | ⟨p1', h', H', _⟩
    · rw [h'] at h; cases h
    · rw [h'] at h; cases h
    · rw [h'] at h; cases h; exact H'
  · unfold propose at h
    split at h
    · cases h
    · cases h
    · rename_i s1 hd _
      simp only at h
      rcases submit_cases p.q H.queue (p.taskid + 1, hd) with ⟨hi, _⟩ | ⟨c, rest, hi, hsub⟩
      · exact absurd hi H.idle
      · rw [hsub] at h
        simp only [Prod.mk.injEq, and_true] at h
        subst h
        exact ⟨c, _, rest, hi, rfl, rfl, rfl⟩

theorem propose_false {m : Nat} (hE : E.OK m) (p p1 : Parent K B C) (H : PInv m w p) (seeds : List Nat)
    (hs : seeds ≠ []) (h : propose E cfg p ⟨seeds, none, []⟩ = (p1, .ok false)) : p1 = p ∧ PInv1 m w p := by
  rcases propose_spec (cfg := cfg) hE p H ⟨seeds, none, []⟩ hs with ⟨e, h'⟩ | ⟨h', H'⟩ | ⟨p1', h', _⟩
  · rw [h'] at h; cases h
  · rw [h'] at h; cases h; exact ⟨rfl, H'⟩
  · rw [h'] at h; cases h

theorem propose_error {m : Nat} (hE : E.OK m) (p p1 : Parent K B C) (H : PInv m w p) (seeds : List Nat)
    (hs : seeds ≠ []) (e : PErr) (h : propose E cfg p ⟨seeds, none, []⟩ = (p1, .error e)) :
    p1 = p ∧ ∃ e', e = .scene e' := by
  rcases propose_spec (cfg := cfg) hE p H ⟨seeds, none, []⟩ hs with ⟨e, h'⟩ | ⟨h', H'⟩ | ⟨p1', h', _⟩
  · rw [h'] at h; cases h; exact ⟨rfl, _, rfl⟩
  · rw [h'] at h; cases h
  · rw [h'] at h; cases h

omit [CommRing K] [LinearOrder K] in
theorem finish_q {m : Nat} (p p2 : Parent K B C) (H : PInv m w p) (res : List (Nat × Held K))
    (h : finish p = (p2, .ok res)) : QInv w p2.q ∧ p2.q.handles = [] := by
  obtain ⟨p', res', h1, _, _, h4, _, _⟩ := finish_spec p H
  have h1' := h1
  rw [h] at h1
  simp only [Prod.mk.injEq, Except.ok.injEq] at h1
  obtain ⟨rfl, rfl⟩ := h1
  have hq : QInv w p2.q := by
    have a := qinv_closeout _ (qinv_collect p.q H.queue .all none trivial)
    unfold finish at h
    split at h
    · cases h
    · rename_i q' results hc
      rw [hc] at a
      split at h
      · cases h
      · rename_i q'' u hcl
        rw [hcl] at a
        simp only [Prod.mk.injEq, Except.ok.injEq] at h
        obtain ⟨h, _⟩ := h
        rw [← h]
        exact a
  refine ⟨hq, ?_⟩
  have := hq.align
  rw [h4] at this
  exact List.map_eq_nil_iff.1 this

omit [CommRing K] [LinearOrder K] in
theorem forall2_mem {α β : Type} {R : α → β → Prop} {l : List α} {l' : List β} (h : List.Forall₂ R l l') {a : α}
    (ha : a ∈ l) : ∃ b, b ∈ l' ∧ R a b := by
  induction h with
  | nil => cases ha
  | @cons x y _ _ hxy _ ih =>
    rcases List.mem_cons.1 ha with rfl | ha
    · exact ⟨y, by simp, hxy⟩
    · obtain ⟨b, hb, hR⟩ := ih ha
      exact ⟨b, List.mem_cons_of_mem _ hb, hR⟩

omit [CommRing K] [LinearOrder K] in
theorem worker_cases {q : Queue (Nat × Held K)} (H : QInv w q) (c : Nat) (hc : c ∈ List.range' 1 w) :
    c ∈ q.idle ∨ ∃ x ∈ q.handles, x.1 = c := by
  have := H.workers.mem_iff.2 hc
  rcases List.mem_append.1 this with h | h
  · exact Or.inl h
  · rw [← H.align] at h
    obtain ⟨x, hx, rfl⟩ := List.mem_map.1 h
    exact Or.inr ⟨x, hx, rfl⟩

omit [CommRing K] [LinearOrder K] in
theorem idle_not_busy {q : Queue (Nat × Held K)} (H : QInv w q) (c : Nat) (hc : c ∈ q.idle) :
    ∀ x ∈ q.handles, x.1 ≠ c := by
  intro x hx he
  have hn := H.nodup
  have : x.1 ∈ q.busy := by rw [← H.align]; exact List.mem_map_of_mem hx
  rw [he] at this
  exact (List.nodup_append.1 hn).2.2 c hc c this rfl

omit [CommRing K] [LinearOrder K] in
theorem idle_range {q : Queue (Nat × Held K)} (H : QInv w q) (c : Nat) (hc : c ∈ q.idle) : 1 ≤ c ∧ c ≤ w := by
  have := H.workers.mem_iff.1 (List.mem_append_left _ hc)
  rw [List.mem_range'_1] at this
  omega

omit [CommRing K] [LinearOrder K] in
theorem idle_all {q : Queue (Nat × Held K)} (H : QInv w q) (h0 : q.handles = []) (c : Nat) (h1 : 1 ≤ c) (h2 : c ≤ w) :
    c ∈ q.idle := by
  rcases worker_cases H c (by rw [List.mem_range'_1]; omega) with h | ⟨x, hx, _⟩
  · exact h
  · rw [h0] at hx; cases hx

/-- The invariant is kept by every step, if children do not raise and their answers fit. -/
theorem ninv_step {m : Nat} (hE : E.OK m) (hlen : ∀ h r, W.works h r → r.1.length = h.active.length)
    (hF : ∀ h, ¬ W.fails h) (p0 : Parent K B C) (H0 : PInv m w p0) (n n' : Net K B C)
    (I : NInv E cfg draws W m w p0 n) (h : Step E cfg draws W w n n') : NInv E cfg draws W m w p0 n' := by
  obtain ⟨p, pc, lane⟩ := n
  obtain ⟨Iq, Ib, Ii, Ip⟩ := I
  cases h with
  | @propose p1 seeds c t hpc hu hs hp hsent =>
    simp only at hpc
    subst hpc
    have hl : Loop E cfg draws p0 p := Ip
    obtain ⟨H1, c', t', rest, e1, e2, e3, e4⟩ := propose_true hE p p1 (loop_inv hE hl H0) seeds hs hp
    simp only at hsent
    rw [e4] at hsent
    have := List.append_cancel_left hsent
    simp only [List.cons.injEq, Prod.mk.injEq, Option.some.injEq, and_true] at this
    obtain ⟨rfl, rfl⟩ := this
    have hc : c' ∈ p.q.idle := by rw [e1]; simp
    have hnot := idle_not_busy Iq c' hc
    have hidle := (Ii c' hc).2 (by simp [Told])
    refine ⟨H1.queue, ?_, ?_, ?_⟩
    · intro x hx
      simp only [e3, List.mem_append, List.mem_singleton] at hx
      rcases hx with hx | rfl
      · simp only
        rw [put_other _ _ _ _ (hnot x hx)]
        exact Ib x hx
      · simp only [put_same]
        obtain ⟨a1, a2, a3⟩ := hidle
        left
        simp only at a1 a2 a3
        exact ⟨by simp [a1], a2, a3⟩
    · intro x hx
      simp only [e2] at hx
      have hne : x ≠ c' := by
        rintro rfl
        have hn := Iq.nodup
        rw [e1] at hn
        exact (List.nodup_cons.1 hn).1 (List.mem_append_left _ hx)
      refine ⟨fun h => absurd h (by simp [Told]), fun _ => ?_⟩
      simp only
      rw [put_other _ _ _ _ hne]
      exact (Ii x (by rw [e1]; exact List.mem_cons_of_mem _ hx)).2 (by simp [Told])
    · exact ⟨p, seeds, hl, hu, hs, hp, H1, t', by simp [e3]⟩
  | @refuse p1 seeds hpc hu hs hp =>
    simp only at hpc
    subst hpc
    have hl : Loop E cfg draws p0 p := Ip
    obtain ⟨rfl, H1⟩ := propose_false hE p p1 (loop_inv hE hl H0) seeds hs hp
    exact ⟨Iq, Ib, Ii, p1, seeds, hl, hu, hs, hp, H1⟩
  | @fail p1 seeds e hpc hu hs hp =>
    simp only at hpc
    subst hpc
    have hl : Loop E cfg draws p0 p := Ip
    obtain ⟨rfl, _⟩ := propose_error hE p p1 (loop_inv hE hl H0) seeds hs _ hp
    exact ⟨Iq, Ib, Ii, p1, seeds, hl, hu, hs, hp⟩
  | @crashSubmit p1 seeds e hpc hu hs hp =>
    simp only at hpc
    subst hpc
    have hl : Loop E cfg draws p0 p := Ip
    obtain ⟨_, e', he⟩ := propose_error hE p p1 (loop_inv hE hl H0) seeds hs _ hp
    cases he
  | go c hpc _ =>
    simp only at hpc
    subst hpc
    obtain ⟨p1, seeds, h1, h2, h3, h4, h5, _⟩ := Ip
    exact ⟨Iq, Ib, Ii, p1, seeds, h1, h2, h3, h4, h5⟩
  | @collect p2 got idx reps hpc hL hA hab =>
    simp only at hpc
    subst hpc
    obtain ⟨p1, seeds, h1, h2, h3, h4, H1⟩ := Ip
    obtain ⟨p2', ha, H2, hLI, hpass, hc⟩ := absorb_ok (draws := draws) (cfg := cfg) hE hlen _ Ib p1 seeds
      (loop_inv hE h1 H0) h3 got h4 H1 idx reps hL hA
    rw [hab] at ha
    simp only [Prod.mk.injEq, and_true] at ha
    subst ha
    simp only at hL hA hc
    have hball : blockingOf p got ≠ .all := by unfold blockingOf; split <;> simp
    obtain ⟨_, _, q', hc', Hq', ⟨freed, hf, hfp⟩, hperm⟩ := collect_some p.q Iq _ idx hball H1.out hL
    rw [hc'] at hc
    simp only [Prod.mk.injEq, and_true] at hc
    subst hc
    set coll := idx.filterMap fun i => p.q.handles[i]? with hcoll
    have hcs : (idx.filterMap fun i => (p.q.handles[i]?).map (·.1)) = coll.map (·.1) := by
      rw [hcoll, List.map_filterMap]
    have hnd : ((coll ++ p2.q.handles).map (·.1)).Nodup := by
      rw [← (hperm.map (·.1)).nodup_iff, Iq.align]
      exact (List.nodup_append.1 Iq.nodup).2.1
    rw [List.map_append] at hnd
    have harr : ∀ x ∈ coll, IdleL { lane x.1 with back := (lane x.1).back.tail } := by
      intro x hx
      rw [hcoll, List.mem_filterMap] at hx
      obtain ⟨i, hi, hx⟩ := hx
      obtain ⟨r, -, hr⟩ : ∃ r, r ∈ reps ∧ Arrived ⟨p, .collect got, lane⟩ i r :=
        forall2_mem hA hi
      obtain ⟨c, t, rest, h5, h6⟩ := hr
      simp only at h5 h6
      rw [hx] at h5
      cases h5
      obtain ⟨_, rfl, _, h7, h8⟩ := busy_arrived _ _ _ _ _ (Ib _ (List.mem_of_getElem? hx)) h6
      simp only at h7 h8
      exact ⟨h7, by simp only [h6, List.tail_cons], h8⟩
    refine ⟨Hq', ?_, ?_, ?_⟩
    · intro x hx
      have hx' : x ∈ p.q.handles := hperm.mem_iff.2 (List.mem_append_right _ hx)
      have hnot : x.1 ∉ coll.map (·.1) := fun h =>
        (List.nodup_append.1 hnd).2.2 _ h _ (List.mem_map_of_mem hx) rfl
      have e : take (⟨p, .collect got, lane⟩ : Net K B C)
          (idx.filterMap fun i => (p.q.handles[i]?).map (·.1)) x.1 = lane x.1 := by
        rw [hcs]; simp only [take, if_neg hnot]
      simp only [e]
      exact Ib x hx'
    · intro c hc
      refine ⟨fun h => absurd h (by simp [Told]), fun _ => ?_⟩
      simp only
      rw [hcs]
      simp only [hf, List.mem_append] at hc
      rcases hc with hc | hc
      · have hnot : c ∉ coll.map (·.1) := by
          intro h
          obtain ⟨x, hx, rfl⟩ := List.mem_map.1 h
          exact idle_not_busy Iq _ hc x (hperm.mem_iff.2 (List.mem_append_left _ hx)) rfl
        simp only [take, if_neg hnot]
        exact (Ii c hc).2 (by simp [Told])
      · have hm := hfp.mem_iff.1 hc
        obtain ⟨x, hx, rfl⟩ := List.mem_map.1 hm
        simp only [take, if_pos hm]
        exact harr x hx
    · exact Loop.pass _ h1 h2 hLI hpass
  | @crashCollect p2 got idx reps e hpc hL hA hab =>
    simp only at hpc
    subst hpc
    obtain ⟨p1, seeds, h1, h2, h3, h4, H1⟩ := Ip
    obtain ⟨p2', ha, _⟩ := absorb_ok (draws := draws) (cfg := cfg) hE hlen _ Ib p1 seeds
      (loop_inv hE h1 H0) h3 got h4 H1 idx reps hL hA
    rw [hab] at ha
    cases ha
  | @crashNone p2 got e hpc hh hL hab =>
    simp only at hpc
    subst hpc
    obtain ⟨p1, seeds, h1, h2, h3, h4, H1⟩ := Ip
    exact absurd hh H1.out
  | leave hpc hu =>
    simp only at hpc
    subst hpc
    exact ⟨Iq, Ib, Ii, Ip, hu⟩
  | @drain p2 res hpc hA hfin =>
    simp only at hpc
    subst hpc
    obtain ⟨hl, hu⟩ := Ip
    have HP := loop_inv hE hl H0
    obtain ⟨Hq2, hh2⟩ := finish_q p p2 HP res hfin
    refine ⟨Hq2, ?_, ?_, ?_⟩
    · intro x hx
      simp only [hh2] at hx
      cases hx
    · intro c hc
      obtain ⟨r1, r2⟩ := idle_range Hq2 c hc
      refine ⟨fun h => absurd h (by simp only [Told]; omega), fun _ => ?_⟩
      rcases worker_cases Iq c (by rw [List.mem_range'_1]; omega) with h | ⟨x, hx, rfl⟩
      · have hnot : c ∉ p.q.handles.map (·.1) := by
          intro h'
          obtain ⟨x, hx, rfl⟩ := List.mem_map.1 h'
          exact idle_not_busy Iq _ h x hx rfl
        simp only [take, if_neg hnot]
        exact (Ii c h).2 (by simp [Told])
      · obtain ⟨r, rest, hr⟩ := hA x hx
        simp only at hr
        obtain ⟨_, rfl, _, h7, h8⟩ := busy_arrived _ _ _ _ _ (Ib _ hx) hr
        simp only [take, if_pos (List.mem_map_of_mem (f := (·.1)) hx)]
        exact ⟨h7, by simp only [hr, List.tail_cons], h8⟩
    · exact ⟨le_refl _, by omega, hh2, p, res, hl, hu, hfin⟩
  | @crashDrain p2 e hpc hA hfin =>
    simp only at hpc
    subst hpc
    obtain ⟨hl, hu⟩ := Ip
    obtain ⟨p', res, h1, _⟩ := finish_spec p (loop_inv hE hl H0)
    rw [hfin] at h1
    cases h1
  | poison k hpc hk =>
    simp only at hpc hk
    subst hpc
    rw [Iq.size] at hk
    obtain ⟨a1, a2, a3, a4⟩ := Ip
    refine ⟨Iq, ?_, ?_, a1, hk, a3, a4⟩
    · intro x hx
      have hx' : x ∈ p.q.handles := hx
      rw [show p.q.handles = [] from a3] at hx'
      cases hx'
    · intro c hc
      simp only [Told]
      by_cases hck : c = k
      · subst hck
        refine ⟨fun _ => ?_, fun h => absurd (le_refl _) h⟩
        obtain ⟨b1, b2, b3⟩ := (Ii c hc).2 (by simp [Told])
        rw [put_same]
        simp only at b1 b2 b3
        exact ⟨b2, Or.inl ⟨by simp [b1], b3⟩⟩
      · rw [put_other _ _ _ _ hck]
        refine ⟨fun h => (Ii c hc).1 ?_, fun h => (Ii c hc).2 ?_⟩
        · simp only [Told]; omega
        · simp only [Told]; omega
  | poisoned k hpc hk =>
    simp only at hpc hk
    subst hpc
    obtain ⟨a1, a2, a3, a4⟩ := Ip
    refine ⟨Iq, Ib, ?_, by omega, by omega, a3, a4⟩
    intro c hc
    simp only [Told]
    refine ⟨fun h => (Ii c hc).1 ?_, fun h => (Ii c hc).2 ?_⟩
    · simp only [Told]; omega
    · simp only [Told]; omega
  | finish k hpc hk =>
    simp only at hpc hk
    subst hpc
    rw [Iq.size] at hk
    obtain ⟨a1, a2, a3, a4⟩ := Ip
    refine ⟨Iq, Ib, ?_, a3, a4⟩
    intro c hc
    obtain ⟨_, r2⟩ := idle_range Iq c hc
    refine ⟨fun _ => (Ii c hc).1 ?_, fun h => absurd trivial h⟩
    simp only [Told]; omega
  | child c l hc hl =>
    refine ⟨Iq, ?_, ?_, Ip⟩
    · intro x hx
      simp only
      by_cases hxc : x.1 = c
      · have := Ib x hx
        simp only [hxc] at this
        rw [hxc, put_same]
        exact busyL_step W hF _ _ _ hl this
      · rw [put_other _ _ _ _ hxc]
        exact Ib x hx
    · intro x hx
      simp only
      by_cases hxc : x = c
      · subst hxc
        rw [put_same]
        exact ⟨fun h => stopL_step W _ _ hl ((Ii x hx).1 h), fun h => idleL_step W _ _ hl ((Ii x hx).2 h)⟩
      · rw [put_other _ _ _ _ hxc]
        exact Ii x hx


omit [CommRing K] [LinearOrder K] in
theorem handle_range {q : Queue (Nat × Held K)} (H : QInv w q) (x : Nat × Nat × Held K) (hx : x ∈ q.handles) :
    x.1 ∈ List.range' 1 w := by
  refine H.workers.mem_iff.1 (List.mem_append_right _ ?_)
  rw [← H.align]
  exact List.mem_map_of_mem hx

/-- In a state meeting the invariant some process can make a step even if sends wait for reception, unless all
have stopped or a checkout raised. -/
theorem ninv_live {m : Nat} (hE : E.OK m) (hlen : ∀ h r, W.works h r → r.1.length = h.active.length)
    (hW : ∀ h : Held K, ∃ r, W.works h r) (p0 : Parent K B C) (H0 : PInv m w p0) (n : Net K B C)
    (I : NInv E cfg draws W m w p0 n) :
    (n.pc = .done ∧ ∀ c ∈ List.range' 1 w, n.lane c = ⟨[], [], .stopped⟩) ∨ (∃ e, n.pc = .failed e) ∨
      ∃ n', Step E cfg draws ⟨false, W.works, W.fails⟩ w n n' := by
  obtain ⟨p, pc, lane⟩ := n
  obtain ⟨Iq, Ib, Ii, Ip⟩ := I
  simp only at Iq Ib Ii Ip ⊢
  have live := fun (x : Nat × Nat × Held K) (hx : x ∈ p.q.handles) =>
    busyL_live (⟨false, W.works, W.fails⟩ : World K C) hW x.2 (lane x.1) (Ib x hx)
  cases pc with
  | top =>
    right; right
    have hl : Loop E cfg draws p0 p := Ip
    have HP := loop_inv hE hl H0
    cases hu : undone cfg p.sup with
    | false => exact ⟨_, Step.leave rfl hu⟩
    | true =>
      rcases propose_spec (cfg := cfg) hE p HP ⟨[0], none, []⟩ (by simp) with ⟨e, h⟩ | ⟨h, _⟩ | ⟨p1, h, _⟩
      · exact ⟨_, Step.fail [0] e rfl hu (by simp) h⟩
      · exact ⟨_, Step.refuse [0] rfl hu (by simp) h⟩
      · obtain ⟨_, c, t, rest, _, _, _, hs⟩ := propose_true hE p p1 HP [0] (by simp) h
        exact ⟨_, Step.propose [0] c t rfl hu (by simp) h hs⟩
  | sent c =>
    right; right
    obtain ⟨_, _, _, _, _, _, _, t, ht⟩ := Ip
    by_cases hf : (lane c).fwd = []
    · exact ⟨_, Step.go c rfl (Or.inr hf)⟩
    · rcases live (c, t) ht with ⟨r, _, hb⟩ | ⟨l', hl'⟩
      · exact absurd (busy_arrived _ _ _ _ _ (Ib _ ht) hb).2.2.2.1 hf
      · exact ⟨_, Step.child c l' (handle_range Iq _ ht) hl'⟩
  | collect got =>
    right; right
    obtain ⟨p1, seeds, h1, h2, h3, h4, H1⟩ := Ip
    have go : ∀ idx reps, Legal p.q (blockingOf p got) (some idx) →
        List.Forall₂ (Arrived ⟨p, .collect got, lane⟩) idx reps →
        ∃ n', Step E cfg draws ⟨false, W.works, W.fails⟩ w ⟨p, .collect got, lane⟩ n' := by
      intro idx reps hL hA
      obtain ⟨p2, ha, _⟩ := absorb_ok (draws := draws) (cfg := cfg) (W := W) hE hlen ⟨p, .collect got, lane⟩ Ib p1 seeds
        (loop_inv hE h1 H0) h3 got h4 H1 idx reps hL hA
      exact ⟨_, Step.collect got idx reps rfl hL hA ha⟩
    cases hb : blockingOf p got with
    | all => unfold blockingOf at hb; split at hb <;> cases hb
    | no =>
      refine go [] [] ?_ List.Forall₂.nil
      rw [hb]
      exact ⟨fun h => absurd h H1.out, fun _ => ⟨[], rfl, by simp, by simp⟩⟩
    | one =>
      obtain ⟨x, l, hx⟩ : ∃ x l, p.q.handles = x :: l := by
        cases hh : p.q.handles with
        | nil => exact absurd hh H1.out
        | cons x l => exact ⟨x, l, rfl⟩
      have hxm : x ∈ p.q.handles := by rw [hx]; simp
      rcases live x hxm with ⟨r, _, hbk⟩ | ⟨l', hl'⟩
      · refine go [0] [r] ?_ (List.Forall₂.cons ⟨x.1, x.2, [], by simp [hx], hbk⟩ List.Forall₂.nil)
        rw [hb]
        exact fun _ => ⟨[0], rfl, by simp, by simp, by simp [hx]⟩
      · exact ⟨_, Step.child x.1 l' (handle_range Iq _ hxm) hl'⟩
  | drain =>
    right; right
    obtain ⟨hl, hu⟩ := Ip
    by_cases hA : ∀ x ∈ p.q.handles, ∃ r rest, (lane x.1).back = (x.2.1, r) :: rest
    · obtain ⟨p2, res, hf, _⟩ := finish_spec p (loop_inv hE hl H0)
      exact ⟨_, Step.drain res rfl hA hf⟩
    · push Not at hA
      obtain ⟨x, hx, hno⟩ := hA
      rcases live x hx with ⟨r, _, hbk⟩ | ⟨l', hl'⟩
      · exact absurd hbk (hno r [])
      · exact ⟨_, Step.child x.1 l' (handle_range Iq _ hx) hl'⟩
  | close k =>
    right; right
    by_cases hk : k ≤ p.q.n
    · exact ⟨_, Step.poison k rfl hk⟩
    · exact ⟨_, Step.finish k rfl (by simp only; omega)⟩
  | closing k =>
    right; right
    obtain ⟨a1, a2, a3, _⟩ := Ip
    have hs := (Ii k (idle_all Iq a3 k a1 a2)).1 (by simp [Told])
    rcases stopL_live (⟨false, W.works, W.fails⟩ : World K C) _ hs with ⟨hf, _⟩ | ⟨l', hl'⟩
    · exact ⟨_, Step.poisoned k rfl (Or.inr hf)⟩
    · exact ⟨_, Step.child k l' (by rw [List.mem_range'_1]; omega) hl'⟩
  | done =>
    obtain ⟨a3, _⟩ := Ip
    by_cases hall : ∀ c ∈ List.range' 1 w, lane c = ⟨[], [], .stopped⟩
    · exact Or.inl ⟨rfl, hall⟩
    · right; right
      push Not at hall
      obtain ⟨c, hc, hne⟩ := hall
      have hr := hc
      rw [List.mem_range'_1] at hr
      have hs := (Ii c (idle_all Iq a3 c (by omega) (by omega))).1 (by simp [Told])
      rcases stopL_live (⟨false, W.works, W.fails⟩ : World K C) _ hs with ⟨hf, hst⟩ | ⟨l', hl'⟩
      · refine absurd ?_ hne
        have hb := hs.1
        cases hl : lane c with
        | mk f b s =>
          rw [hl] at hf hst hb
          simp only at hf hst hb
          rw [hf, hst, hb]
      · exact ⟨_, Step.child c l' hc hl'⟩
  | failed e => exact Or.inr (Or.inl ⟨e, rfl⟩)
  | crashed => exact absurd Ip id

/-! ## Counting steps -/

/-- What the parent may still do before its next pass, or until it ends. -/
def rank (w : Nat) : PC → Nat
  | .sent _ => 6 * w + 5
  | .collect _ => 6 * w + 4
  | .top => 6 * w + 3
  | .drain => 6 * w + 2
  | .close k => 6 * (w + 1 - k) + 1
  | .closing k => 6 * (w - k) + 2
  | .done => 0
  | .failed _ => 0
  | .crashed => 0

/-- The same for the whole system. -/
def mu (w : Nat) (n : Net K B C) : Nat := rank w n.pc + ((List.range' 1 w).map fun c => laneM (n.lane c)).sum

omit [CommRing K] [LinearOrder K] in
theorem sum_put {α : Type} (g : α → Nat) (f : Nat → α) (c : Nat) (v : α) : ∀ l : List Nat, l.Nodup →
    (c ∈ l → (l.map fun x => g (put f c v x)).sum + g (f c) = (l.map fun x => g (f x)).sum + g v) ∧
    (c ∉ l → (l.map fun x => g (put f c v x)).sum = (l.map fun x => g (f x)).sum) := by
  intro l
  induction l with
  | nil => intro _; exact ⟨by simp, by simp⟩
  | cons a t ih =>
    intro hnd
    obtain ⟨h1, h2⟩ := List.nodup_cons.1 hnd
    obtain ⟨i1, i2⟩ := ih h2
    simp only [List.map_cons, List.sum_cons]
    refine ⟨fun hc => ?_, fun hc => ?_⟩
    · by_cases hca : c = a
      · subst hca
        rw [i2 h1, put_same]
        omega
      · have := i1 ((List.mem_cons.1 hc).resolve_left hca)
        rw [put_other _ _ _ _ (Ne.symm hca)]
        omega
    · simp only [List.mem_cons, not_or] at hc
      rw [i2 hc.2, put_other _ _ _ _ (Ne.symm hc.1)]

omit [CommRing K] [LinearOrder K] in
theorem laneM_take (n : Net K B C) (cs : List Nat) (c : Nat) : laneM (take n cs c) = laneM (n.lane c) := by
  unfold take
  split <;> rfl

/-- A step that begins no pass uses up some of what may be done; one that begins a pass adds little. -/
theorem mu_step (n n' : Net K B C) (hq : n.p.q.n = w) (h : Step E cfg draws W w n n') :
    mu w n' ≤ mu w n + 6 ∧ (¬ Begins n n' → mu w n' + 1 ≤ mu w n) := by
  obtain ⟨p, pc, lane⟩ := n
  have nd : (List.range' 1 w).Nodup := List.nodup_range'
  cases h with
  | @propose p1 seeds c t hpc hu hs hp hsent =>
    simp only at hpc
    subst hpc
    have hs := sum_put laneM lane c { lane c with fwd := (lane c).fwd ++ [some t] } _ nd
    have hv : laneM { lane c with fwd := (lane c).fwd ++ [some t] } = laneM (lane c) + 4 := by
      simp only [laneM, List.length_append, List.length_cons, List.length_nil]; omega
    have hsum : ((List.range' 1 w).map fun x =>
        laneM (put lane c { lane c with fwd := (lane c).fwd ++ [some t] } x)).sum ≤
        ((List.range' 1 w).map fun x => laneM (lane x)).sum + 4 := by
      by_cases hc : c ∈ List.range' 1 w
      · have := hs.1 hc; omega
      · have := hs.2 hc; omega
    refine ⟨?_, fun hn => absurd ⟨rfl, Or.inl ⟨c, rfl⟩⟩ hn⟩
    simp only [mu, rank] at hsum ⊢
    omega
  | refuse seeds hpc hu hs hp =>
    simp only at hpc
    subst hpc
    refine ⟨by simp only [mu, rank]; omega, fun hn => absurd ⟨rfl, Or.inr rfl⟩ hn⟩
  | fail seeds e hpc hu hs hp =>
    simp only at hpc
    subst hpc
    refine ⟨by simp only [mu, rank]; omega, fun _ => by simp only [mu, rank]; omega⟩
  | crashSubmit seeds e hpc hu hs hp =>
    simp only at hpc
    subst hpc
    refine ⟨by simp only [mu, rank]; omega, fun _ => by simp only [mu, rank]; omega⟩
  | go c hpc _ =>
    simp only at hpc
    subst hpc
    refine ⟨by simp only [mu, rank]; omega, fun _ => by simp only [mu, rank]; omega⟩
  | collect got idx reps hpc hL hA hab =>
    simp only at hpc
    subst hpc
    simp only [mu, rank, laneM_take]
    refine ⟨by omega, fun _ => by omega⟩
  | crashCollect got idx reps e hpc hL hA hab =>
    simp only at hpc
    subst hpc
    refine ⟨by simp only [mu, rank]; omega, fun _ => by simp only [mu, rank]; omega⟩
  | crashNone got e hpc hh hL hab =>
    simp only at hpc
    subst hpc
    refine ⟨by simp only [mu, rank]; omega, fun _ => by simp only [mu, rank]; omega⟩
  | leave hpc hu =>
    simp only at hpc
    subst hpc
    refine ⟨by simp only [mu, rank]; omega, fun _ => by simp only [mu, rank]; omega⟩
  | drain res hpc hA hfin =>
    simp only at hpc
    subst hpc
    simp only [mu, rank, laneM_take]
    refine ⟨by omega, fun _ => by omega⟩
  | crashDrain e hpc hA hfin =>
    simp only at hpc
    subst hpc
    refine ⟨by simp only [mu, rank]; omega, fun _ => by simp only [mu, rank]; omega⟩
  | poison k hpc hk =>
    simp only at hpc hk hq
    subst hpc
    have hs := sum_put laneM lane k { lane k with fwd := (lane k).fwd ++ [none] } _ nd
    have hv : laneM { lane k with fwd := (lane k).fwd ++ [none] } = laneM (lane k) + 4 := by
      simp only [laneM, List.length_append, List.length_cons, List.length_nil]; omega
    have hsum : ((List.range' 1 w).map fun x =>
        laneM (put lane k { lane k with fwd := (lane k).fwd ++ [none] } x)).sum ≤
        ((List.range' 1 w).map fun x => laneM (lane x)).sum + 4 := by
      by_cases hc : k ∈ List.range' 1 w
      · have := hs.1 hc; omega
      · have := hs.2 hc; omega
    simp only [mu, rank] at hsum ⊢
    refine ⟨by omega, fun _ => by omega⟩
  | poisoned k hpc hk =>
    simp only at hpc
    subst hpc
    simp only [mu, rank]
    refine ⟨by omega, fun _ => by omega⟩
  | finish k hpc hk =>
    simp only at hpc
    subst hpc
    simp only [mu, rank]
    refine ⟨by omega, fun _ => by omega⟩
  | child c l hc hl =>
    have hs := (sum_put laneM lane c l _ nd).1 hc
    have hv := laneM_step W _ _ hl
    simp only at hv
    simp only [mu]
    refine ⟨by omega, fun _ => by omega⟩

/-- The invariant and the count along runs. -/
theorem run_inv {m : Nat} (hE : E.OK m) (hlen : ∀ h r, W.works h r → r.1.length = h.active.length)
    (hF : ∀ h, ¬ W.fails h) (p0 : Parent K B C) (H0 : PInv m w p0) (n0 n : Net K B C) (k j : Nat)
    (I : NInv E cfg draws W m w p0 n0) (h : Run E cfg draws W w n0 k j n) :
    NInv E cfg draws W m w p0 n ∧ k + mu w n ≤ mu w n0 + 7 * j := by
  induction h with
  | nil => exact ⟨I, by omega⟩
  | pass _ hs _ ih =>
    have := (mu_step _ _ ih.1.q.size hs).1
    exact ⟨ninv_step hE hlen hF p0 H0 _ _ ih.1 hs, by omega⟩
  | other _ hs hb ih =>
    have := (mu_step _ _ ih.1.q.size hs).2 hb
    exact ⟨ninv_step hE hlen hF p0 H0 _ _ ih.1 hs, by omega⟩

theorem ninv_init {m : Nat} (s : State K B C) (H0 : PInv m w (start s w)) :
    NInv E cfg draws W m w (start s w) (init s w) where
  q := H0.queue
  busy := by
    intro x hx
    have : x ∈ ([] : List (Nat × Nat × Held K)) := hx
    cases this
  idle := fun c _ => ⟨fun h => absurd h (by simp [Told, init]), fun _ => ⟨rfl, rfl, Or.inl rfl⟩⟩
  pc := Loop.refl _


omit [CommRing K] [LinearOrder K] in
theorem finish_same (p p2 : Parent K B C) (r : Except PErr (List (Nat × Held K))) (h : finish p = (p2, r)) :
    p2.taskid = p.taskid ∧ p2.trace = p.trace := by
  unfold finish at h
  split at h
  · cases h; exact ⟨rfl, rfl⟩
  · split at h <;> (cases h; exact ⟨rfl, rfl⟩)

theorem propose_count (p p1 : Parent K B C) (seeds : List Nat) (r : Except PErr Bool)
    (h : propose E cfg p ⟨seeds, none, []⟩ = (p1, r)) :
    p1.trace = p.trace ∧ p.taskid ≤ p1.taskid ∧ (r = .ok true → p1.taskid = p.taskid + 1) := by
  unfold propose at h
  split at h
  · simp only [Prod.mk.injEq] at h
    obtain ⟨rfl, rfl⟩ := h
    exact ⟨rfl, le_refl _, by simp⟩
  · simp only [Prod.mk.injEq] at h
    obtain ⟨rfl, rfl⟩ := h
    exact ⟨rfl, le_refl _, by simp⟩
  · simp only at h
    split at h
    · simp only [Prod.mk.injEq] at h
      obtain ⟨rfl, rfl⟩ := h
      exact ⟨rfl, Nat.le_succ _, by simp⟩
    · simp only [Prod.mk.injEq] at h
      obtain ⟨rfl, rfl⟩ := h
      exact ⟨rfl, Nat.le_succ _, by simp⟩

/-- A pass begun without a task is still owed a result. -/
def owed : PC → Nat
  | .collect false => 1
  | _ => 0

/-- Tasks and results count the passes. -/
theorem count_step {m : Nat} (hE : E.OK m) (hlen : ∀ h r, W.works h r → r.1.length = h.active.length)
    (p0 : Parent K B C) (H0 : PInv m w p0) (n n' : Net K B C) (I : NInv E cfg draws W m w p0 n)
    (h : Step E cfg draws W w n n') :
    n.p.taskid + n.p.trace.length + owed n.pc ≤ n'.p.taskid + n'.p.trace.length + owed n'.pc ∧
    (Begins n n' → n.p.taskid + n.p.trace.length + owed n.pc + 1 ≤ n'.p.taskid + n'.p.trace.length + owed n'.pc) := by
  obtain ⟨p, pc, lane⟩ := n
  obtain ⟨Iq, Ib, Ii, Ip⟩ := I
  cases h with
  | @propose p1 seeds c t hpc hu hs hp hsent =>
    simp only at hpc
    subst hpc
    obtain ⟨h1, _, h3⟩ := propose_count _ _ _ _ hp
    have h3 := h3 rfl
    simp only [owed, h1, h3]
    exact ⟨by omega, fun _ => by omega⟩
  | @refuse p1 seeds hpc hu hs hp =>
    simp only at hpc
    subst hpc
    obtain ⟨h1, h2, _⟩ := propose_count _ _ _ _ hp
    simp only [owed, h1] at h2 ⊢
    exact ⟨by omega, fun _ => by omega⟩
  | @fail p1 seeds e hpc hu hs hp =>
    simp only at hpc
    subst hpc
    obtain ⟨h1, h2, _⟩ := propose_count _ _ _ _ hp
    simp only [owed, h1] at h2 ⊢
    refine ⟨by omega, ?_⟩
    rintro ⟨_, ⟨c, hc⟩ | hc⟩ <;> cases hc
  | @crashSubmit p1 seeds e hpc hu hs hp =>
    simp only at hpc
    subst hpc
    obtain ⟨h1, h2, _⟩ := propose_count _ _ _ _ hp
    simp only [owed, h1] at h2 ⊢
    refine ⟨by omega, ?_⟩
    rintro ⟨_, ⟨c, hc⟩ | hc⟩ <;> cases hc
  | go c hpc _ =>
    simp only at hpc
    subst hpc
    refine ⟨by simp only [owed]; omega, ?_⟩
    rintro ⟨hc, _⟩
    cases hc
  | @collect p2 got idx reps hpc hL hA hab =>
    simp only at hpc
    subst hpc
    refine ⟨?_, by rintro ⟨hc, _⟩; cases hc⟩
    obtain ⟨p1, seeds, h1, h2, h3, h4, H1⟩ := Ip
    obtain ⟨p2', ha, _, _, _, hc⟩ := absorb_ok (draws := draws) (cfg := cfg) hE hlen _ Ib p1 seeds
      (loop_inv hE h1 H0) h3 got h4 H1 idx reps hL hA
    rw [hab] at ha
    simp only [Prod.mk.injEq, and_true] at ha
    subst ha
    have hab' := hab
    simp only [absorb] at hab'
    simp only at hc
    rw [hc] at hab'
    simp only at hab'
    split at hab'
    · exact absurd (congrArg Prod.snd hab') (by simp)
    rename_i s' hci
    simp only [Prod.mk.injEq, and_true] at hab'
    have ht : p2.taskid = p.taskid := by rw [← hab']
    have htr : p2.trace.length = p.trace.length +
        (idx.filterMap fun i => (p.q.handles[i]?).map (·.2)).length := by
      conv_lhs => rw [← hab']
      simp
    simp only [ht, htr]
    cases got with
    | true => simp only [owed]; omega
    | false =>
      have hb : blockingOf p false = .one := by simp [blockingOf]
      simp only at hL
      rw [hb] at hL
      obtain ⟨l, e1, e2, e3, e4⟩ := hL H1.out
      cases e1
      cases idx with
      | nil => exact absurd rfl e2
      | cons i t =>
        have hg : p.q.handles[i]? = some (p.q.handles[i]'(e4 i (by simp))) := List.getElem?_eq_getElem _
        simp only [List.filterMap_cons, hg, Option.map_some, List.length_cons, owed]
        omega
  | @crashCollect p2 got idx reps e hpc hL hA hab =>
    simp only at hpc
    subst hpc
    obtain ⟨p1, seeds, h1, h2, h3, h4, H1⟩ := Ip
    obtain ⟨p2', ha, _⟩ := absorb_ok (draws := draws) (cfg := cfg) hE hlen _ Ib p1 seeds
      (loop_inv hE h1 H0) h3 got h4 H1 idx reps hL hA
    rw [hab] at ha
    cases ha
  | @crashNone p2 got e hpc hh hL hab =>
    simp only at hpc
    subst hpc
    obtain ⟨p1, seeds, h1, h2, h3, h4, H1⟩ := Ip
    exact absurd hh H1.out
  | leave hpc hu =>
    simp only at hpc
    subst hpc
    refine ⟨by simp only [owed]; omega, ?_⟩
    rintro ⟨_, ⟨c, hc⟩ | hc⟩ <;> cases hc
  | @drain p2 res hpc hA hfin =>
    simp only at hpc
    subst hpc
    obtain ⟨a, b⟩ := finish_same _ _ _ hfin
    simp only [a, b, owed]
    refine ⟨by omega, ?_⟩
    rintro ⟨hc, _⟩
    cases hc
  | @crashDrain p2 e hpc hA hfin =>
    simp only at hpc
    subst hpc
    obtain ⟨a, b⟩ := finish_same _ _ _ hfin
    simp only [a, b, owed]
    refine ⟨by omega, ?_⟩
    rintro ⟨hc, _⟩
    cases hc
  | poison k hpc hk =>
    simp only at hpc
    subst hpc
    refine ⟨by simp only [owed]; omega, ?_⟩
    rintro ⟨hc, _⟩
    cases hc
  | poisoned k hpc hk =>
    simp only at hpc
    subst hpc
    refine ⟨by simp only [owed]; omega, ?_⟩
    rintro ⟨hc, _⟩
    cases hc
  | finish k hpc hk =>
    simp only at hpc
    subst hpc
    refine ⟨by simp only [owed]; omega, ?_⟩
    rintro ⟨hc, _⟩
    cases hc
  | child c l hc hl =>
    refine ⟨le_refl _, ?_⟩
    rintro ⟨h1, ⟨c, hc⟩ | hc⟩
    · simp only at h1 hc; rw [h1] at hc; cases hc
    · simp only at h1 hc; rw [h1] at hc; cases hc

theorem run_count {m : Nat} (hE : E.OK m) (hlen : ∀ h r, W.works h r → r.1.length = h.active.length)
    (hF : ∀ h, ¬ W.fails h) (s : State K B C) (H0 : PInv m w (start s w)) (n : Net K B C) (k j : Nat)
    (h : Run E cfg draws W w (init s w) k j n) : j ≤ n.p.taskid + n.p.trace.length + owed n.pc := by
  induction h with
  | nil => exact Nat.zero_le _
  | pass hr hs hb ih =>
    have I := (run_inv hE hlen hF _ H0 _ _ _ _ (ninv_init s H0) hr).1
    have := (count_step hE hlen _ H0 _ _ I hs).2 hb
    omega
  | other hr hs hb ih =>
    have I := (run_inv hE hlen hF _ H0 _ _ _ _ (ninv_init s H0) hr).1
    have := (count_step hE hlen _ H0 _ _ I hs).1
    omega

/-- At most one task of each child is not yet checked in. -/
theorem tasks_le {m : Nat} (hE : E.OK m) (p0 : Parent K B C) (H0 : PInv m w p0) (n : Net K B C)
    (I : NInv E cfg draws W m w p0 n) : n.p.taskid ≤ n.p.trace.length + w := by
  have hlen : ∀ q : Queue (Nat × Held K), QInv w q → q.handles.length ≤ w := by
    intro q Hq
    have h1 := Hq.workers.length_eq
    have h2 := Hq.lenh
    rw [List.length_append, List.length_range'] at h1
    omega
  have key : ∀ p : Parent K B C, QInv w p.q →
      (p.trace.map (·.1) ++ p.q.handles.map fun x => x.2.1).Perm (List.range' 1 p.taskid) →
      p.taskid ≤ p.trace.length + w := by
    intro p Hq hids
    have h1 := hids.length_eq
    have h2 := hlen p.q Hq
    simp only [List.length_append, List.length_map, List.length_range'] at h1
    omega
  have fin : ∀ p p2 : Parent K B C, ∀ r, Loop E cfg draws p0 p → finish p = (p2, r) → p2.taskid ≤ p2.trace.length + w := by
    intro p p2 r hl hf
    obtain ⟨a, b⟩ := finish_same _ _ _ hf
    have HP := loop_inv hE hl H0
    rw [a, b]
    exact key p HP.queue HP.ids
  obtain ⟨p, pc, lane⟩ := n
  obtain ⟨Iq, -, -, Ip⟩ := I
  cases pc with
  | top => exact key p Iq (loop_inv hE Ip H0).ids
  | sent c =>
    obtain ⟨_, _, _, _, _, _, H1, _⟩ := Ip
    exact key p Iq H1.ids
  | collect got =>
    obtain ⟨_, _, _, _, _, _, H1⟩ := Ip
    exact key p Iq H1.ids
  | drain => exact key p Iq (loop_inv hE Ip.1 H0).ids
  | close k =>
    obtain ⟨_, _, _, p1, res, hl, _, hf⟩ := Ip
    exact fin p1 p _ hl hf
  | closing k =>
    obtain ⟨_, _, _, p1, res, hl, _, hf⟩ := Ip
    exact fin p1 p _ hl hf
  | done =>
    obtain ⟨_, p1, res, hl, _, hf⟩ := Ip
    exact fin p1 p _ hl hf
  | failed e =>
    obtain ⟨p1, seeds, hl, _, hs, hp⟩ := Ip
    have HP := loop_inv hE hl H0
    obtain ⟨h, _⟩ := propose_error hE p1 p HP seeds hs _ hp
    subst h
    exact key p Iq HP.ids
  | crashed => exact absurd Ip id

/-- Once the loop is left no pass begins. -/
def Late : PC → Prop
  | .drain => True
  | .close _ => True
  | .closing _ => True
  | .done => True
  | _ => False

theorem late_step {m : Nat} (hE : E.OK m) (hlen : ∀ h r, W.works h r → r.1.length = h.active.length)
    (hF : ∀ h, ¬ W.fails h) (p0 : Parent K B C) (H0 : PInv m w p0) (n n' : Net K B C)
    (I : NInv E cfg draws W m w p0 n) (h : Step E cfg draws W w n n') (hl : Late n.pc) :
    Late n'.pc ∧ ¬ Begins n n' := by
  have I' := ninv_step hE hlen hF p0 H0 _ _ I h
  refine ⟨?_, ?_⟩
  · cases h with
    | propose _ _ _ hpc => rw [hpc] at hl; exact hl.elim
    | refuse _ hpc => rw [hpc] at hl; exact hl.elim
    | fail _ _ hpc => rw [hpc] at hl; exact hl.elim
    | crashSubmit _ _ hpc => rw [hpc] at hl; exact hl.elim
    | go _ hpc => rw [hpc] at hl; exact hl.elim
    | collect _ _ _ hpc => rw [hpc] at hl; exact hl.elim
    | crashCollect _ _ _ _ hpc => rw [hpc] at hl; exact hl.elim
    | crashNone _ _ hpc => rw [hpc] at hl; exact hl.elim
    | leave hpc => trivial
    | drain => trivial
    | crashDrain => exact absurd I'.pc id
    | poison => trivial
    | poisoned => trivial
    | finish => trivial
    | child => exact hl
  · rintro ⟨hpc, _⟩
    rw [hpc] at hl
    exact hl

theorem late_run {m : Nat} (hE : E.OK m) (hlen : ∀ h r, W.works h r → r.1.length = h.active.length)
    (hF : ∀ h, ¬ W.fails h) (p0 : Parent K B C) (H0 : PInv m w p0) (n n' : Net K B C) (k j : Nat)
    (I : NInv E cfg draws W m w p0 n) (hl : Late n.pc) (h : Run E cfg draws W w n k j n') :
    Late n'.pc ∧ j = 0 := by
  induction h with
  | nil => exact ⟨hl, rfl⟩
  | pass hr hs hb ih =>
    exact absurd hb (late_step hE hlen hF p0 H0 _ _ (run_inv hE hlen hF _ H0 _ _ _ _ I hr).1 hs ih.1).2
  | other hr hs hb ih =>
    exact ⟨(late_step hE hlen hF p0 H0 _ _ (run_inv hE hlen hF _ H0 _ _ _ _ I hr).1 hs ih.1).1, ih.2⟩

/-- A child never has more than one message and one step before it. -/
theorem lanes_le {m : Nat} (p0 : Parent K B C) (n : Net K B C) (I : NInv E cfg draws W m w p0 n) :
    ((List.range' 1 w).map fun c => laneM (n.lane c)).sum ≤ 5 * w := by
  have one : ∀ c ∈ List.range' 1 w, laneM (n.lane c) ≤ 5 := by
    intro c hc
    rcases worker_cases I.q c hc with h | ⟨x, hx, rfl⟩
    · obtain ⟨h1, h2⟩ := I.idle c h
      by_cases ht : Told n.pc c
      · obtain ⟨_, ⟨a, b | b⟩ | ⟨a, b⟩⟩ := h1 ht <;> simp [laneM, a, b]
      · obtain ⟨a, _, b | b⟩ := h2 ht <;> simp [laneM, a, b]
    · rcases I.busy x hx with ⟨a, _, b | b⟩ | ⟨a, _, b⟩ | ⟨a, _, b | b⟩ <;> simp [laneM, a, b]
  have : ∀ l : List Nat, (∀ c ∈ l, laneM (n.lane c) ≤ 5) → (l.map fun c => laneM (n.lane c)).sum ≤ 5 * l.length := by
    intro l
    induction l with
    | nil => intro _; simp
    | cons a t ih =>
      intro h
      have h1 := h a (by simp)
      have h2 := ih fun c hc => h c (List.mem_cons_of_mem _ hc)
      simp only [List.map_cons, List.sum_cons, List.length_cons]
      omega
  simpa using this _ one


/-! ## The theorems -/

/-- C133 (order): if the work function never raises and answers with one parameter set for each active source, then in
every reachable state of the system, whatever the order of steps and the buffering of messages,
* neither the queue nor a check-in has raised, and the parent's state is one of the event loop on its own (`Loop`), so
  that what is proved of that holds of the whole system;
* each child has at most one message before it and one behind it; a task on its way to a child, or being worked on, is
  the one whose answer is awaited from that child, and an answer on its way bears the number of that task and is the
  work function's answer to that region;
* a child is told to stop only after the loop has ended and all answers were received. -/
theorem C133_order (cat : List (Row K)) (hE : E.OK cat.length) (bounds : List B) (one : C) (hw : 1 ≤ w)
    (hlen : ∀ h r, W.works h r → r.1.length = h.active.length) (hF : ∀ h, ¬ W.fails h) (n : Net K B C) (k j : Nat)
    (h : Run E cfg draws W w (init (ingest cat bounds one) w) k j n) :
    n.pc ≠ .crashed ∧
    (n.pc = .top → Loop E cfg draws (start (ingest cat bounds one) w) n.p) ∧
    (n.pc = .done → ∃ p res, Loop E cfg draws (start (ingest cat bounds one) w) p ∧ undone cfg p.sup = false ∧
      finish p = (n.p, .ok res)) ∧
    ∀ c, 1 ≤ c → c ≤ w →
      (∀ t l, (n.lane c).fwd = some t :: l → l = [] ∧ (n.lane c).back = [] ∧ (c, t) ∈ n.p.q.handles) ∧
      (∀ t, (n.lane c).ch = .work t → (n.lane c).fwd = [] ∧ (n.lane c).back = [] ∧ (c, t) ∈ n.p.q.handles) ∧
      (∀ tag r l, (n.lane c).back = (tag, r) :: l → l = [] ∧ (n.lane c).fwd = [] ∧
        ∃ hd, (c, (tag, hd)) ∈ n.p.q.handles ∧ W.works hd r) ∧
      ((n.lane c).ch = .stopped ∨ none ∈ (n.lane c).fwd → n.p.q.handles = [] ∧
        ((∃ i, n.pc = .close i ∧ c < i) ∨ (∃ i, n.pc = .closing i ∧ c ≤ i) ∨ n.pc = .done)) ∧
      (n.lane c).ch ≠ .dead := by
  have H0 := pinv_start _ (inv_fresh cat bounds one) rfl hw
  have I := (run_inv (cfg := cfg) (draws := draws) hE hlen hF _ H0 _ _ _ _ (ninv_init _ H0) h).1
  refine ⟨?_, ?_, ?_, ?_⟩
  · intro hc
    have := I.pc
    rw [hc] at this
    exact this
  · intro hc
    have := I.pc
    rw [hc] at this
    exact this
  · intro hc
    have := I.pc
    rw [hc] at this
    obtain ⟨_, p1, res, h1, h2, h3⟩ := this
    exact ⟨p1, res, h1, h2, h3⟩
  · intro c hc1 hc2
    rcases worker_cases I.q c (by rw [List.mem_range'_1]; omega) with hi | ⟨x, hx, rfl⟩
    · by_cases ht : Told n.pc c
      · obtain ⟨b1, b2⟩ := (I.idle c hi).1 ht
        have hpc : n.p.q.handles = [] ∧
            ((∃ i, n.pc = .close i ∧ c < i) ∨ (∃ i, n.pc = .closing i ∧ c ≤ i) ∨ n.pc = .done) := by
          have hp := I.pc
          cases hpc : n.pc <;> rw [hpc] at ht hp <;> simp only [Told] at ht
          · exact ⟨hp.2.2.1, Or.inl ⟨_, rfl, ht⟩⟩
          · exact ⟨hp.2.2.1, Or.inr (Or.inl ⟨_, rfl, ht⟩)⟩
          · exact ⟨hp.1, Or.inr (Or.inr rfl)⟩
        rcases b2 with ⟨b2, b3⟩ | ⟨b2, b3⟩
        · refine ⟨fun t l h => (by rw [b2] at h; simp at h), fun t h => ?_, fun tag r l h => (by rw [b1] at h; cases h),
            fun _ => hpc, fun h => ?_⟩
          · rcases b3 with b3 | b3 <;> (rw [b3] at h; cases h)
          · rcases b3 with b3 | b3 <;> (rw [b3] at h; cases h)
        · exact ⟨fun t l h => (by rw [b2] at h; simp at h), fun t h => (by rw [b3] at h; cases h),
            fun tag r l h => (by rw [b1] at h; cases h), fun _ => hpc, fun h => (by rw [b3] at h; cases h)⟩
      · obtain ⟨b1, b2, b3⟩ := (I.idle c hi).2 ht
        refine ⟨fun t l h => (by rw [b1] at h; simp at h), fun t h => ?_, fun tag r l h => (by rw [b2] at h; cases h),
          fun h => ?_, fun h => ?_⟩
        · rcases b3 with b3 | b3 <;> (rw [b3] at h; cases h)
        · rcases h with h | h
          · rcases b3 with b3 | b3 <;> (rw [b3] at h; cases h)
          · rw [b1] at h; cases h
        · rcases b3 with b3 | b3 <;> (rw [b3] at h; cases h)
    · obtain ⟨c, t⟩ := x
      simp only at hc1 hc2 ⊢
      rcases I.busy _ hx with ⟨b1, b2, b3⟩ | ⟨b1, b2, b3⟩ | ⟨b1, ⟨r', hw', b2⟩, b3⟩
      · simp only at b1 b2 b3
        refine ⟨fun t' l h => ?_, fun t h => ?_, fun tag r l h => (by rw [b2] at h; cases h), fun h => ?_, fun h => ?_⟩
        · rw [b1] at h
          simp only [List.cons.injEq, Option.some.injEq] at h
          exact ⟨h.2.symm, b2, by rw [← h.1]; exact hx⟩
        · rcases b3 with b3 | b3 <;> (rw [b3] at h; cases h)
        · rcases h with h | h
          · rcases b3 with b3 | b3 <;> (rw [b3] at h; cases h)
          · rw [b1] at h; simp at h
        · rcases b3 with b3 | b3 <;> (rw [b3] at h; cases h)
      · simp only at b1 b2 b3
        refine ⟨fun t' l h => (by rw [b1] at h; cases h), fun t' h => ?_, fun tag r l h => (by rw [b2] at h; cases h),
          fun h => ?_, fun h => (by rw [b3] at h; cases h)⟩
        · rw [b3] at h
          cases h
          exact ⟨b1, b2, hx⟩
        · rcases h with h | h
          · rw [b3] at h; cases h
          · rw [b1] at h; cases h
      · simp only at b1 b2 b3
        refine ⟨fun t' l h => (by rw [b1] at h; cases h), fun t h => ?_, fun tag r l h => ?_, fun h => ?_, fun h => ?_⟩
        · rcases b3 with b3 | b3 <;> (rw [b3] at h; cases h)
        · rw [b2] at h
          simp only [List.cons.injEq, Prod.mk.injEq] at h
          obtain ⟨⟨rfl, rfl⟩, rfl⟩ := h
          exact ⟨rfl, b1, t.2, hx, hw'⟩
        · rcases h with h | h
          · rcases b3 with b3 | b3 <;> (rw [b3] at h; cases h)
          · rw [b1] at h; cases h
        · rcases b3 with b3 | b3 <;> (rw [b3] at h; cases h)

/-- C133 (no deadlock): if the work function always answers, then from every state that can be reached, with messages
buffered or not, some process can go on, even if from there on every send waits for its reception; except when all
processes have ended properly, or a checkout has raised in the parent. -/
theorem C133_no_deadlock (cat : List (Row K)) (hE : E.OK cat.length) (bounds : List B) (one : C) (hw : 1 ≤ w)
    (hlen : ∀ h r, W.works h r → r.1.length = h.active.length) (hF : ∀ h, ¬ W.fails h)
    (hW : ∀ h : Held K, ∃ r, W.works h r) (n : Net K B C) (k j : Nat)
    (h : Run E cfg draws W w (init (ingest cat bounds one) w) k j n) :
    (n.pc = .done ∧ ∀ c, 1 ≤ c → c ≤ w → n.lane c = ⟨[], [], .stopped⟩) ∨ (∃ e, n.pc = .failed e) ∨
      ∃ n', Step E cfg draws ⟨false, W.works, W.fails⟩ w n n' := by
  have H0 := pinv_start _ (inv_fresh cat bounds one) rfl hw
  have I := (run_inv (cfg := cfg) (draws := draws) hE hlen hF _ H0 _ _ _ _ (ninv_init _ H0) h).1
  rcases ninv_live hE hlen hW _ H0 n I with ⟨h1, h2⟩ | h1 | h1
  · exact Or.inl ⟨h1, fun c a b => h2 c (by rw [List.mem_range'_1]; omega)⟩
  · exact Or.inr (Or.inl h1)
  · exact Or.inr (Or.inr h1)

/-- C133 (no livelock): the steps made by all processes together are bounded by the results checked in: at most 14 for
each, and 13 for each child and 10 besides. -/
theorem C133_progress (cat : List (Row K)) (hE : E.OK cat.length) (bounds : List B) (one : C) (hw : 1 ≤ w)
    (hlen : ∀ h r, W.works h r → r.1.length = h.active.length) (hF : ∀ h, ¬ W.fails h) (n : Net K B C) (k j : Nat)
    (h : Run E cfg draws W w (init (ingest cat bounds one) w) k j n) :
    k ≤ 14 * n.p.sup.patchlog.length + 13 * w + 10 := by
  have H0 := pinv_start _ (inv_fresh cat bounds one) rfl hw
  obtain ⟨I, hk⟩ := run_inv (cfg := cfg) (draws := draws) hE hlen hF _ H0 _ _ _ _ (ninv_init _ H0) h
  have hj := run_count hE hlen hF _ H0 n k j h
  have ht := tasks_le hE _ H0 n I
  have ho : owed n.pc ≤ 1 := by unfold owed; split <;> omega
  have hlog : n.p.sup.patchlog.length = n.p.trace.length := by
    have fin : ∀ p p2 : Parent K B C, ∀ r, Loop E cfg draws (start (ingest cat bounds one) w) p →
        finish p = (p2, .ok r) → p2.sup.patchlog.length = p2.trace.length := by
      intro p p2 r hl hf
      have HP := loop_inv hE hl H0
      obtain ⟨p', res, h1, _, h3, _⟩ := finish_spec p HP
      rw [hf] at h1
      cases h1
      rw [(finish_same _ _ _ hf).2, h3, HP.logs, List.length_map]
    have hp := I.pc
    cases hpc : n.pc <;> rw [hpc] at hp
    · rw [(loop_inv hE hp H0).logs, List.length_map]
    · obtain ⟨_, _, _, _, _, _, H1, _⟩ := hp
      rw [H1.logs, List.length_map]
    · obtain ⟨_, _, _, _, _, _, H1⟩ := hp
      rw [H1.logs, List.length_map]
    · rw [(loop_inv hE hp.1 H0).logs, List.length_map]
    · obtain ⟨_, _, _, p1, res, hl, _, hf⟩ := hp
      exact fin p1 _ _ hl hf
    · obtain ⟨_, _, _, p1, res, hl, _, hf⟩ := hp
      exact fin p1 _ _ hl hf
    · obtain ⟨_, p1, res, hl, _, hf⟩ := hp
      exact fin p1 _ _ hl hf
    · obtain ⟨p1, seeds, hl, _, hs, hp⟩ := hp
      have HP := loop_inv hE hl H0
      obtain ⟨h, _⟩ := propose_error hE p1 n.p HP seeds hs _ hp
      rw [h, HP.logs, List.length_map]
    · exact absurd hp id
  have hm : mu w (init (ingest cat bounds one) w : Net K B C) = 6 * w + 3 := by
    have : ∀ l : List Nat, (l.map fun _ : Nat => laneM (⟨[], [], .recv⟩ : Lane K C)).sum = 0 := by
      intro l
      simp [laneM]
    simp only [mu, init, rank]
    rw [this]
  rw [hlog]
  omega

/-- C133 (shutdown): once the targets are met, at most eleven steps for each child and two besides follow, and the run
does not halt before the parent has finished and all children have stopped, with no message left. -/
theorem C133_shutdown (cat : List (Row K)) (hE : E.OK cat.length) (bounds : List B) (one : C) (hw : 1 ≤ w)
    (hlen : ∀ h r, W.works h r → r.1.length = h.active.length) (hF : ∀ h, ¬ W.fails h)
    (hW : ∀ h : Held K, ∃ r, W.works h r) (n : Net K B C) (k j : Nat)
    (h : Run E cfg draws W w (init (ingest cat bounds one) w) k j n) (hpc : n.pc = .drain) (n' : Net K B C) (k' j' : Nat)
    (h' : Run E cfg draws W w n k' j' n') :
    k' ≤ 11 * w + 2 ∧ ((n'.pc = .done ∧ ∀ c, 1 ≤ c → c ≤ w → n'.lane c = ⟨[], [], .stopped⟩) ∨
      ∃ n'', Step E cfg draws ⟨false, W.works, W.fails⟩ w n' n'') := by
  have H0 := pinv_start _ (inv_fresh cat bounds one) rfl hw
  have I := (run_inv (cfg := cfg) (draws := draws) hE hlen hF _ H0 _ _ _ _ (ninv_init _ H0) h).1
  obtain ⟨I', hk⟩ := run_inv hE hlen hF _ H0 _ _ _ _ I h'
  obtain ⟨hl, rfl⟩ := late_run hE hlen hF _ H0 _ _ _ _ I (by rw [hpc]; trivial) h'
  have hs := lanes_le _ n I
  have hm : mu w n = 6 * w + 2 + ((List.range' 1 w).map fun c => laneM (n.lane c)).sum := by
    simp only [mu, hpc, rank]
  refine ⟨by omega, ?_⟩
  rcases ninv_live hE hlen hW _ H0 n' I' with ⟨h1, h2⟩ | ⟨e, h1⟩ | h1
  · exact Or.inl ⟨h1, fun c a b => h2 c (by rw [List.mem_range'_1]; omega)⟩
  · rw [h1] at hl; exact hl.elim
  · exact Or.inr h1

/-- C133 is false of the code (1): if a checkout raises in the parent, no child ever stops: the processes can make at
most five more steps for each child, and then every child waits for a message that never comes, or for its answer to be
received. -/
theorem C133_refuted_exception (cat : List (Row K)) (hE : E.OK cat.length) (bounds : List B) (one : C) (hw : 1 ≤ w)
    (hlen : ∀ h r, W.works h r → r.1.length = h.active.length) (hF : ∀ h, ¬ W.fails h)
    (hW : ∀ h : Held K, ∃ r, W.works h r) (n : Net K B C) (k j : Nat)
    (h : Run E cfg draws W w (init (ingest cat bounds one) w) k j n) (e : Err) (hpc : n.pc = .failed e) (n' : Net K B C)
    (k' j' : Nat) (h' : Run E cfg draws W w n k' j' n') :
    n'.pc = .failed e ∧ k' ≤ 5 * w ∧ (∀ c, 1 ≤ c → c ≤ w → (n'.lane c).ch ≠ .stopped) ∧
    ((∀ n'', ¬ Step E cfg draws W w n' n'') → ∀ c, 1 ≤ c → c ≤ w →
      ((n'.lane c).ch = .recv ∧ (n'.lane c).fwd = []) ∨ ((n'.lane c).ch = .sent ∧ (n'.lane c).back ≠ [])) := by
  have H0 := pinv_start _ (inv_fresh cat bounds one) rfl hw
  have I := (run_inv (cfg := cfg) (draws := draws) hE hlen hF _ H0 _ _ _ _ (ninv_init _ H0) h).1
  obtain ⟨I', hk⟩ := run_inv hE hlen hF _ H0 _ _ _ _ I h'
  have hf : n'.pc = .failed e ∧ j' = 0 := by
    clear I' hk
    induction h' with
    | nil => exact ⟨hpc, rfl⟩
    | pass _ _ hb ih => exact absurd (ih.1.symm.trans hb.1) (by simp)
    | other _ hs _ ih =>
      refine ⟨?_, ih.2⟩
      have hpc' := ih.1
      cases hs with
      | child => exact hpc'
      | propose _ _ _ h => rw [hpc'] at h; cases h
      | refuse _ h => rw [hpc'] at h; cases h
      | fail _ _ h => rw [hpc'] at h; cases h
      | crashSubmit _ _ h => rw [hpc'] at h; cases h
      | go _ h => rw [hpc'] at h; cases h
      | collect _ _ _ h => rw [hpc'] at h; cases h
      | crashCollect _ _ _ _ h => rw [hpc'] at h; cases h
      | crashNone _ _ h => rw [hpc'] at h; cases h
      | leave h => rw [hpc'] at h; cases h
      | drain _ h => rw [hpc'] at h; cases h
      | crashDrain _ h => rw [hpc'] at h; cases h
      | poison _ h => rw [hpc'] at h; cases h
      | poisoned _ h => rw [hpc'] at h; cases h
      | finish _ h => rw [hpc'] at h; cases h
  obtain ⟨hpc', rfl⟩ := hf
  have hs := lanes_le _ n I
  have hm : mu w n = 0 + ((List.range' 1 w).map fun c => laneM (n.lane c)).sum := by simp only [mu, hpc, rank]
  have lanes : ∀ c, 1 ≤ c → c ≤ w → IdleL (n'.lane c) ∨ ∃ t, BusyL W t (n'.lane c) := by
    intro c h1 h2
    rcases worker_cases I'.q c (by rw [List.mem_range'_1]; omega) with hi | ⟨x, hx, rfl⟩
    · exact Or.inl ((I'.idle c hi).2 (by rw [hpc']; simp [Told]))
    · exact Or.inr ⟨_, I'.busy x hx⟩
  refine ⟨hpc', by omega, ?_, ?_⟩
  · intro c h1 h2 hst
    rcases lanes c h1 h2 with ⟨_, _, b | b⟩ | ⟨t, ⟨_, _, b | b⟩ | ⟨_, _, b⟩ | ⟨_, _, b | b⟩⟩ <;>
      (rw [hst] at b; cases b)
  · intro hno c h1 h2
    have hc : c ∈ List.range' 1 w := by rw [List.mem_range'_1]; omega
    have hno' : ∀ l, ¬ LStep W (n'.lane c) l := fun l hl => hno _ (Step.child c l hc hl)
    have hsent : (n'.lane c).ch = .sent → (n'.lane c).back ≠ [] := by
      intro hs hb
      apply hno' ⟨(n'.lane c).fwd, (n'.lane c).back, .recv⟩
      have : n'.lane c = ⟨(n'.lane c).fwd, (n'.lane c).back, .sent⟩ := by
        conv_rhs => rw [← hs]
      conv => arg 2; rw [this]
      exact LStep.free _ _ (Or.inr hb)
    rcases lanes c h1 h2 with ⟨b1, _, b | b⟩ | ⟨t, hb⟩
    · exact Or.inl ⟨b, b1⟩
    · exact Or.inr ⟨b, hsent b⟩
    · rcases busyL_live W hW t _ hb with ⟨r, _, hbk⟩ | ⟨l', hl'⟩
      · obtain ⟨_, _, _, b1, b | b⟩ := busy_arrived _ _ _ _ _ hb hbk
        · exact Or.inl ⟨b, b1⟩
        · exact Or.inr ⟨b, hsent b⟩
      · exact absurd hl' (hno' l')


/-! ## The work function of the code -/

/-- What a checkout leaves alone. -/
theorem tryCheckout_same (seeds : List Nat) : ∀ (s s' : State K B C) (r : Except Err (Option (Held K))),
    tryCheckout E cfg s seeds = (s', r) → undone cfg s' = undone cfg s ∧ s'.patchlog = s.patchlog := by
  induction seeds with
  | nil => intro s s' r h; cases h; exact ⟨rfl, rfl⟩
  | cons k ks ih =>
    intro s s' r h
    rw [tryCheckout] at h
    rcases checkout_cases E cfg s k with ⟨e, h1⟩ | h1 | ⟨seed, radius, act, fix, _, _, h1⟩
    · rw [h1] at h; cases h; exact ⟨rfl, rfl⟩
    · rw [h1] at h; exact ih _ _ _ h
    · rw [h1] at h
      simp only [Prod.mk.injEq] at h
      obtain ⟨rfl, _⟩ := h
      refine ⟨?_, rfl⟩
      rw [Bool.eq_iff_iff]
      simp only [undone, List.any_eq_true, List.mem_iff_getElem?, rows3_getElem?]
      constructor
      · rintro ⟨x, ⟨i, hi⟩, hx⟩
        obtain ⟨y, hy, rfl⟩ := Option.map_eq_some_iff.1 hi
        exact ⟨y, ⟨i, hy⟩, hx⟩
      · rintro ⟨y, ⟨i, hy⟩, hx⟩
        exact ⟨{ y with
          isActive := if i ∈ act then true else y.isActive
          isValid := if i ∈ act ∨ i ∈ fix then false else y.isValid }, ⟨i, by rw [hy, Option.map_some]⟩, hx⟩

theorem propose_same (p p1 : Parent K B C) (seeds : List Nat) (r : Except PErr Bool)
    (h : propose E cfg p ⟨seeds, none, []⟩ = (p1, r)) :
    undone cfg p1.sup = undone cfg p.sup ∧ p1.sup.patchlog = p.sup.patchlog ∧
    (r = .ok false → p1.q = p.q ∧ p1.taskid = p.taskid) := by
  unfold propose at h
  split at h
  · rename_i s1 e ht
    simp only [Prod.mk.injEq] at h
    obtain ⟨rfl, rfl⟩ := h
    have := tryCheckout_same _ _ _ _ ht
    exact ⟨this.1, this.2, by simp⟩
  · rename_i s1 ht
    simp only [Prod.mk.injEq] at h
    obtain ⟨rfl, rfl⟩ := h
    have := tryCheckout_same _ _ _ _ ht
    exact ⟨this.1, this.2, fun _ => ⟨rfl, rfl⟩⟩
  · rename_i s1 hd ht
    have := tryCheckout_same _ _ _ _ ht
    simp only at h
    split at h
    · simp only [Prod.mk.injEq] at h
      obtain ⟨rfl, rfl⟩ := h
      exact ⟨this.1, this.2, by simp⟩
    · simp only [Prod.mk.injEq] at h
      obtain ⟨rfl, rfl⟩ := h
      exact ⟨this.1, this.2, by simp⟩

theorem propose_queue (p p1 : Parent K B C) (H : QInv w p.q) (seeds : List Nat) (r : Except PErr Bool)
    (h : propose E cfg p ⟨seeds, none, []⟩ = (p1, r)) :
    QInv w p1.q ∧ (r = .ok true → p1.q.handles.length = p.q.handles.length + 1) := by
  unfold propose at h
  split at h
  · simp only [Prod.mk.injEq] at h
    obtain ⟨rfl, rfl⟩ := h
    exact ⟨H, by simp⟩
  · simp only [Prod.mk.injEq] at h
    obtain ⟨rfl, rfl⟩ := h
    exact ⟨H, by simp⟩
  · rename_i s1 hd ht
    have hq := qinv_submit p.q H (p.taskid + 1, hd)
    simp only at h
    rcases submit_cases p.q H (p.taskid + 1, hd) with ⟨hi, hsub⟩ | ⟨c, rest, hi, hsub⟩
    · rw [hsub] at h
      simp only [Prod.mk.injEq] at h
      obtain ⟨rfl, rfl⟩ := h
      exact ⟨H, by simp⟩
    · rw [hsub] at h hq
      simp only [Prod.mk.injEq] at h
      obtain ⟨rfl, rfl⟩ := h
      exact ⟨hq, by simp⟩

/-- `do_child` with `dummy_work` (dispatcher.py:268, 303-317): the work function indexes a tuple with a string and so
always raises. -/
def dummy (eager : Bool) : World K C := ⟨eager, fun _ _ => False, fun _ => True⟩

/-- The invariant of a run in which no child answers. -/
structure DInv (cfg : Config K) (w : Nat) (s : State K B C) (j : Nat) (n : Net K B C) : Prop where
  q : QInv w n.p.q
  back : ∀ c, (n.lane c).back = []
  log : n.p.sup.patchlog = s.patchlog
  todo : undone cfg n.p.sup = true
  late : ¬ Late n.pc
  tid : n.pc ≠ .crashed → n.p.taskid = n.p.q.handles.length
  cnt : (n.pc ≠ .crashed → n.pc ≠ .collect false → j ≤ n.p.taskid) ∧ j ≤ w + 1

omit [CommRing K] [LinearOrder K] in
theorem handles_le {q : Queue (Nat × Held K)} (Hq : QInv w q) : q.handles.length ≤ w := by
  have h1 := Hq.workers.length_eq
  have h2 := Hq.lenh
  rw [List.length_append, List.length_range'] at h1
  omega

theorem dinv_step (eager : Bool) (s : State K B C) (j : Nat) (n n' : Net K B C) (I : DInv cfg w s j n)
    (h : Step E cfg draws (dummy eager) w n n') :
    (Begins n n' → DInv cfg w s (j + 1) n') ∧ (¬ Begins n n' → DInv cfg w s j n') := by
  obtain ⟨p, pc, lane⟩ := n
  obtain ⟨Iq, Ib, Il, It, Ia, Id, Ic⟩ := I
  simp only at Iq Ib Il It Ia Id Ic
  have noArr : ∀ (idx : List Nat) (reps : List (Rep K C)),
      List.Forall₂ (Arrived (⟨p, pc, lane⟩ : Net K B C)) idx reps → idx = [] ∧ reps = [] := by
    intro idx reps hA
    cases hA with
    | nil => exact ⟨rfl, rfl⟩
    | cons h _ =>
      obtain ⟨c, t, rest, _, h2⟩ := h
      simp only [Ib c] at h2
      cases h2
  cases h with
  | @propose p1 seeds c t hpc hu hs hp hsent =>
    simp only at hpc
    subst hpc
    obtain ⟨a1, a2, _⟩ := propose_same _ _ _ _ hp
    obtain ⟨b1, b2⟩ := propose_queue _ _ Iq _ _ hp
    obtain ⟨_, _, c3⟩ := propose_count _ _ _ _ hp
    have b2 := b2 rfl
    have c3 := c3 rfl
    have d := Id (by simp)
    have e := Ic.1 (by simp) (by simp)
    simp only at b2 c3
    refine ⟨fun _ => ⟨b1, ?_, a2.trans Il, a1.trans It, by simp [Late], fun _ => by simp only; omega, ?_⟩,
      fun hn => absurd ⟨rfl, Or.inl ⟨c, rfl⟩⟩ hn⟩
    · intro x
      simp only
      by_cases hx : x = c
      · subst hx; rw [put_same]; exact Ib x
      · rw [put_other _ _ _ _ hx]; exact Ib x
    · have := handles_le Iq
      refine ⟨fun _ _ => by simp only; omega, by omega⟩
  | @refuse p1 seeds hpc hu hs hp =>
    simp only at hpc
    subst hpc
    obtain ⟨a1, a2, a3⟩ := propose_same _ _ _ _ hp
    obtain ⟨a3, a4⟩ := a3 rfl
    have d := Id (by simp)
    have e := Ic.1 (by simp) (by simp)
    have := handles_le Iq
    refine ⟨fun _ => ⟨by simp only [a3]; exact Iq, Ib, a2.trans Il, a1.trans It, by simp [Late],
      fun _ => by simp only [a3, a4]; exact d, fun _ h => absurd rfl h, by omega⟩,
      fun hn => absurd ⟨rfl, Or.inr rfl⟩ hn⟩
  | @fail p1 seeds e hpc hu hs hp =>
    simp only at hpc
    subst hpc
    have hp' := hp
    have e' := Ic.1 (by simp) (by simp)
    have d := Id (by simp)
    obtain ⟨a1, a2, a3⟩ := propose_same _ _ _ _ hp
    have hsame : p1.q = p.q ∧ p1.taskid = p.taskid := by
      unfold propose at hp'
      split at hp'
      · simp only [Prod.mk.injEq] at hp'
        obtain ⟨rfl, _⟩ := hp'
        exact ⟨rfl, rfl⟩
      · simp at hp'
      · simp only at hp'
        split at hp'
        · simp at hp'
        · simp at hp'
    refine ⟨?_, fun _ => ⟨by simp only [hsame.1]; exact Iq, Ib, a2.trans Il, a1.trans It, by simp [Late],
      fun _ => by simp only [hsame.1, hsame.2]; exact d, fun _ _ => by simp only [hsame.2]; exact e', Ic.2⟩⟩
    rintro ⟨_, ⟨c, hc⟩ | hc⟩ <;> cases hc
  | @crashSubmit p1 seeds e hpc hu hs hp =>
    simp only at hpc
    subst hpc
    obtain ⟨a1, a2, a3⟩ := propose_same _ _ _ _ hp
    obtain ⟨b1, _⟩ := propose_queue _ _ Iq _ _ hp
    refine ⟨?_, fun _ => ⟨b1, Ib, a2.trans Il, a1.trans It, by simp [Late], fun h => absurd rfl h,
      fun h => absurd rfl h, Ic.2⟩⟩
    rintro ⟨_, ⟨c, hc⟩ | hc⟩ <;> cases hc
  | go c hpc _ =>
    simp only at hpc
    subst hpc
    refine ⟨(by rintro ⟨hc, _⟩; cases hc), fun _ => ⟨Iq, Ib, Il, It, by simp [Late], fun _ => Id (by simp),
      fun _ _ => Ic.1 (by simp) (by simp), Ic.2⟩⟩
  | @collect p2 got idx reps hpc hL hA hab =>
    simp only at hpc
    subst hpc
    obtain ⟨rfl, rfl⟩ := noArr _ _ hA
    refine ⟨(by rintro ⟨hc, _⟩; cases hc), fun _ => ?_⟩
    simp only at hL hab
    have hp2 : p2 = p ∧ got = true := by
      have hball : blockingOf p got ≠ .all := by unfold blockingOf; split <;> simp
      simp only [absorb, collect, hball, false_and, if_false, List.filterMap_nil, List.insertionSort_nil, release] at hab
      split at hab
      · cases hab
      · rename_i q' res hc
        split at hc
        · cases hc
        · rename_i hno
          split at hc
          · simp only [Prod.mk.injEq, Except.ok.injEq] at hc
            obtain ⟨rfl, rfl⟩ := hc
            simp only [List.zip_nil_left, checkinAll, List.map_nil, List.append_nil, Prod.mk.injEq, and_true] at hab
            refine ⟨hab.symm, ?_⟩
            cases got with
            | true => rfl
            | false =>
              have hb : blockingOf p false = .one := by simp [blockingOf]
              rw [hb] at hL hno
              obtain ⟨l, e1, e2, _⟩ := hL (by
                intro h0
                exact hno ⟨by simp, by simp [h0]⟩)
              cases e1
              exact absurd rfl e2
          · cases hc
    obtain ⟨rfl, rfl⟩ := hp2
    refine ⟨Iq, ?_, Il, It, by simp [Late], fun _ => Id (by simp), fun _ _ => Ic.1 (by simp) (by simp), Ic.2⟩
    intro c
    simp only [take, List.filterMap_nil, List.not_mem_nil, if_false]
    exact Ib c
  | @crashCollect p2 got idx reps e hpc hL hA hab =>
    simp only at hpc
    subst hpc
    obtain ⟨rfl, rfl⟩ := noArr _ _ hA
    refine ⟨(by rintro ⟨hc, _⟩; cases hc), fun _ => ?_⟩
    simp only at hL hab
    have hsame : p2.q = p.q ∧ p2.sup = p.sup := by
      have hball : blockingOf p got ≠ .all := by unfold blockingOf; split <;> simp
      simp only [absorb, collect, hball, false_and, if_false, List.filterMap_nil, List.insertionSort_nil, release] at hab
      split at hab
      · rename_i q' e' hc
        simp only [Prod.mk.injEq] at hab
        obtain ⟨rfl, _⟩ := hab
        split at hc
        · cases hc; exact ⟨rfl, rfl⟩
        · split at hc
          · cases hc
          · cases hc; exact ⟨rfl, rfl⟩
      · rename_i q' res hc
        split at hc
        · cases hc
        · split at hc
          · simp only [Prod.mk.injEq, Except.ok.injEq] at hc
            obtain ⟨rfl, rfl⟩ := hc
            simp only [List.zip_nil_left, checkinAll] at hab
            cases hab
          · cases hc
    refine ⟨by simp only [hsame.1]; exact Iq, Ib, by simp only [hsame.2]; exact Il, by simp only [hsame.2]; exact It,
      by simp [Late], fun h => absurd rfl h, fun h => absurd rfl h, Ic.2⟩
  | @crashNone p2 got e hpc hh hL hab =>
    simp only at hpc
    subst hpc
    refine ⟨(by rintro ⟨hc, _⟩; cases hc), fun _ => ?_⟩
    simp only at hL hab hh
    have hsame : p2.q = p.q ∧ p2.sup = p.sup := by
      have hball : blockingOf p got ≠ .all := by unfold blockingOf; split <;> simp
      simp only [absorb, collect, hball, false_and, if_false] at hab
      split at hab
      · rename_i q' e' hc
        simp only [Prod.mk.injEq] at hab
        obtain ⟨rfl, _⟩ := hab
        split at hc
        · cases hc; exact ⟨rfl, rfl⟩
        · cases hc; exact ⟨rfl, rfl⟩
      · rename_i q' res hc
        split at hc
        · cases hc
        · cases hc
    refine ⟨by simp only [hsame.1]; exact Iq, Ib, by simp only [hsame.2]; exact Il, by simp only [hsame.2]; exact It,
      by simp [Late], fun h => absurd rfl h, fun h => absurd rfl h, Ic.2⟩
  | leave hpc hu =>
    simp only at hu
    rw [It] at hu
    cases hu
  | drain _ hpc => simp only at hpc; subst hpc; exact absurd trivial Ia
  | crashDrain _ hpc => simp only at hpc; subst hpc; exact absurd trivial Ia
  | poison _ hpc => simp only at hpc; subst hpc; exact absurd trivial Ia
  | poisoned _ hpc => simp only at hpc; subst hpc; exact absurd trivial Ia
  | finish _ hpc => simp only at hpc; subst hpc; exact absurd trivial Ia
  | child c l hc hl =>
    refine ⟨?_, fun _ => ⟨Iq, ?_, Il, It, Ia, Id, Ic⟩⟩
    · rintro ⟨h1, ⟨c, hc⟩ | hc⟩
      · simp only at h1 hc; rw [h1] at hc; cases hc
      · simp only at h1 hc; rw [h1] at hc; cases hc
    · intro x
      simp only
      by_cases hx : x = c
      · subst hx
        rw [put_same]
        have hb := Ib x
        cases hl0 : lane x with
        | mk f b st =>
          simp only at hl
          rw [hl0] at hl hb
          cases hl with
          | task => exact hb
          | stop => exact hb
          | answer _ _ _ _ hw => exact hw.elim
          | raise => exact hb
          | free => exact hb
      · rw [put_other _ _ _ _ hx]; exact Ib x

/-- C133 is false of the code (2): with the work function that the code uses, which always raises, no result is ever
checked in and the parent never leaves its loop properly: whatever happens, all processes together make at most 13 steps
for each child and 10 besides, and are then stuck. -/
theorem C133_refuted_dummy (eager : Bool) (s : State K B C) (hs : undone cfg s = true) (n : Net K B C) (k j : Nat)
    (h : Run E cfg draws (⟨eager, fun _ _ => False, fun _ => True⟩ : World K C) w (init s w) k j n) :
    n.p.sup.patchlog = s.patchlog ∧ undone cfg n.p.sup = true ∧ n.pc ≠ .done ∧ k ≤ 13 * w + 10 := by
  have key : DInv cfg w s j n ∧ k + mu w n ≤ mu w (init s w : Net K B C) + 7 * j := by
    induction h with
    | nil =>
      refine ⟨⟨qinv_init w, fun _ => rfl, rfl, hs, by simp [Late, init], fun _ => rfl, fun _ _ => Nat.zero_le _,
        Nat.zero_le _⟩, by omega⟩
    | pass _ hs hb ih =>
      have := (mu_step _ _ ih.1.q.size hs).1
      exact ⟨(dinv_step eager s _ _ _ ih.1 hs).1 hb, by omega⟩
    | other _ hs hb ih =>
      have := (mu_step _ _ ih.1.q.size hs).2 hb
      exact ⟨(dinv_step eager s _ _ _ ih.1 hs).2 hb, by omega⟩
  obtain ⟨I, hk⟩ := key
  have hm : mu w (init s w : Net K B C) = 6 * w + 3 := by
    have : ∀ l : List Nat, (l.map fun _ : Nat => laneM (⟨[], [], .recv⟩ : Lane K C)).sum = 0 := by
      intro l
      simp [laneM]
    simp only [mu, init, rank]
    rw [this]
  have := I.cnt.2
  refine ⟨I.log, I.todo, ?_, by omega⟩
  intro hd
  have := I.late
  rw [hd] at this
  exact this trivial


end

/-! ## Concrete runs -/

/-- Answers that leave the parameters alone; sends wait for reception. -/
def world1 : World Int Nat := ⟨false, fun h r => r = (h.active.map (·.par), none), fun _ => False⟩
/-- One source. -/
def scene1 : State Int Nat Nat := ingest [mkRow 0 0] [0] 1
/-- The parent after the first task was sent, -/
def par1 : Parent Int Nat Nat := (propose (lineEnv [0]) cfgP (start scene1 1) ⟨[0], none, []⟩).1
/-- the task, -/
def task1 : Nat × Held Int := (1, ⟨par1.sup.rows, []⟩)
/-- the answer, -/
def rep1 : Rep Int Nat := (task1.2.active.map (·.par), none)
/-- the parent after the answer was received, -/
def par2 : Parent Int Nat Nat := (absorb 5 par1 true ⟨[], some [0], [rep1]⟩).1
/-- and after the queue was closed. -/
def par3 : Parent Int Nat Nat := (finish par2).1

/-- A run with one child and one source, from start to proper end. -/
theorem run1 : ∃ (k j : Nat) (n : Net Int Nat Nat),
    Run (lineEnv [0]) cfgP 5 world1 1 (init scene1 1) k j n ∧ n.pc = .done ∧ n.lane 1 = ⟨[], [], .stopped⟩ ∧
      n.p.sup.patchlog = ["1"] := by
  have e1 : propose (lineEnv [0]) cfgP (start scene1 1) ⟨[0], none, []⟩ = (par1, .ok true) := by rfl
  have s1 : par1.q.sent = (start scene1 1).q.sent ++ [(1, some task1)] := by rfl
  have e2 : absorb 5 par1 true ⟨[], some [0], [rep1]⟩ = (par2, none) := by rfl
  have u1 : undone cfgP (start scene1 1).sup = true := by decide +kernel
  have u2 : undone cfgP par2.sup = false := by decide +kernel
  have e3 : finish par2 = (par3, .ok []) := by rfl
  have h2 : par2.q.handles = [] := by rfl
  have lg : par3.sup.patchlog = ["1"] := by decide +kernel
  have mem : 1 ∈ List.range' 1 1 := by decide
  have r0 := Run.nil (E := lineEnv [0]) (cfg := cfgP) (draws := 5) (W := world1) (w := 1) (n0 := init scene1 1)
  have r1 := Run.pass r0 (Step.propose [0] 1 task1 rfl u1 (by simp) e1 s1) ⟨rfl, Or.inl ⟨1, rfl⟩⟩
  have r2 := Run.other r1 (Step.child 1 ⟨[], [], .work task1⟩ mem (LStep.task task1 [] []))
    (by rintro ⟨h, _⟩; cases h)
  have r3 := Run.other r2 (Step.go 1 rfl (Or.inr rfl)) (by rintro ⟨h, _⟩; cases h)
  have r4 := Run.other r3 (Step.child 1 ⟨[], [(1, rep1)], .sent⟩ mem (LStep.answer task1 rep1 [] [] rfl))
    (by rintro ⟨h, _⟩; cases h)
  have r5 := Run.other r4 (Step.collect true [0] [rep1] rfl
    (legalB_sound _ _ _ (by decide +kernel))
    (List.Forall₂.cons ⟨1, task1, [], rfl, rfl⟩ List.Forall₂.nil) e2) (by rintro ⟨h, _⟩; cases h)
  have r6 := Run.other r5 (Step.leave rfl u2) (by rintro ⟨_, ⟨c, h⟩ | h⟩ <;> cases h)
  have r7 := Run.other r6 (Step.drain [] rfl (by
      intro x hx
      have : x ∈ par2.q.handles := hx
      rw [h2] at this
      cases this) e3) (by rintro ⟨h, _⟩; cases h)
  have r8 := Run.other r7 (Step.poison 1 rfl (by decide +kernel)) (by rintro ⟨h, _⟩; cases h)
  have r9 := Run.other r8 (Step.child 1 ⟨[none], [], .recv⟩ mem (LStep.free [none] [] (Or.inr rfl)))
    (by rintro ⟨h, _⟩; cases h)
  have r10 := Run.other r9 (Step.child 1 ⟨[], [], .stopped⟩ mem (LStep.stop [] [])) (by rintro ⟨h, _⟩; cases h)
  have r11 := Run.other r10 (Step.poisoned 1 rfl (Or.inr rfl)) (by rintro ⟨h, _⟩; cases h)
  have r12 := Run.other r11 (Step.finish 2 rfl (by decide +kernel)) (by rintro ⟨h, _⟩; cases h)
  exact ⟨_, _, _, r12, rfl, rfl, lg⟩

/-- The work function of `run1` meets the hypotheses of the theorems. -/
example : (∀ h r, world1.works h r → r.1.length = h.active.length) ∧ (∀ h, ¬ world1.fails h) ∧
    (∀ h : Held Int, ∃ r, world1.works h r) ∧ (lineEnv [0]).OK [mkRow 0 0].length :=
  ⟨fun h r hr => by rw [show r = _ from hr]; simp, fun _ h => h, fun h => ⟨_, rfl⟩, lineEnv_ok _⟩

/-- A source larger than the largest patch ends the parent, as in `C133_refuted_exception`: the first checkout raises. -/
theorem run_failed : ∃ (k j : Nat) (n : Net Int Nat Nat),
    Run (lineEnv [0]) cfgP 5 world1 1 (init (ingest [mkRow 0 9] [0] 1) 1) k j n ∧ n.pc = .failed .valueError := by
  have e1 : propose (lineEnv [0]) cfgP (start (ingest [mkRow 0 9] [0] 1 : State Int Nat Nat) 1) ⟨[0], none, []⟩ =
      (start (ingest [mkRow 0 9] [0] 1) 1, .error (.scene .valueError)) := by rfl
  have u1 : undone cfgP (start (ingest [mkRow 0 9] [0] 1 : State Int Nat Nat) 1).sup = true := by decide +kernel
  exact ⟨_, _, _, Run.other Run.nil (Step.fail [0] .valueError rfl u1 (by simp) e1)
    (by rintro ⟨_, ⟨c, h⟩ | h⟩ <;> cases h), rfl⟩

/-- The hypothesis of `C133_refuted_dummy` is met by any catalog with work to do. -/
example : undone cfgP scene1 = true := by decide +kernel

end Forcepho.Dispatcher.Net
