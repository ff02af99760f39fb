import Verif.Dispatcher.Net
import Verif.Dispatcher.Serial

/-! # The result of a distributed run

The processes of a run, interleaved in any order (`Net.Step`, dispatcher.py:156-300), against one process that fits one
region after the other.  This joins the two models: the answers that are checked in are those that the children's work
function gave for the very regions they were handed, and the catalog is the one that a single process would have made. -/

set_option autoImplicit false

namespace Forcepho.Dispatcher.System

open Forcepho.SuperScene Forcepho.Dispatcher.Net Forcepho.Dispatcher.Serial

variable {K B C : Type} [CommRing K] [LinearOrder K] {E : Env K} {cfg : Config K} {draws : Int} {W : World K C} {w : Nat}

/-- Runs of the system in which, whenever the parent is about to ask for a region, no source has strayed further than
the boundary radius from the place at which the tree has it (superscene.py:404-410). -/
inductive NearRun (E : Env K) (cfg : Config K) (draws : Int) (W : World K C) (w : Nat) (n0 : Net K B C) :
    Net K B C → Prop
  | nil : NearRun E cfg draws W w n0 n0
  | step {n n' : Net K B C} : NearRun E cfg draws W w n0 n → (n.pc = .top → Near E cfg n.p.sup) →
      Net.Step E cfg draws W w n n' → NearRun E cfg draws W w n0 n'

theorem NearRun.run {n0 n : Net K B C} (h : NearRun E cfg draws W w n0 n) : ∃ k j, Net.Run E cfg draws W w n0 k j n := by
  induction h with
  | nil => exact ⟨0, 0, Run.nil⟩
  | @step n n' _ _ hs ih =>
    obtain ⟨k, j, h⟩ := ih
    by_cases hb : Begins n n'
    · exact ⟨_, _, Run.pass h hs hb⟩
    · exact ⟨_, _, Run.other h hs hb⟩

/-- Every answer of the history was given by the work function to the region as it was handed out, and was checked in
with the configured number of draws (dispatcher.py:226-230). -/
def Given (draws : Int) (W : World K C) (hist : List (Rec K B C)) : Prop :=
  ∀ e ∈ hist, ∀ r, e.reply = some r → ∃ x tid, W.works e.held x ∧ r = ⟨x.1, draws, x.2, none, tid⟩

omit [CommRing K] [LinearOrder K] in
theorem given_append (l l' : List (Rec K B C)) (h : Given draws W l) (h' : ∀ e ∈ l', e.reply = none) :
    Given draws W (l ++ l') := by
  intro e he r hr
  rcases List.mem_append.1 he with he | he
  · exact h e he r hr
  · rw [h' e he] at hr; cases hr

/-- The answers received were given by the work function. -/
theorem arrived_given (n : Net K B C) (hb : ∀ x ∈ n.p.q.handles, BusyL W x.2 (n.lane x.1)) (idx : List Nat)
    (reps : List (Rep K C)) (hA : List.Forall₂ (Arrived n) idx reps) :
    List.Forall₂ (fun (r : Nat × Held K) (rep : Rep K C) => W.works r.2 rep)
      (idx.filterMap fun i => (n.p.q.handles[i]?).map (·.2)) reps := by
  induction hA with
  | nil => exact List.Forall₂.nil
  | @cons i r idx reps h _ ih =>
    obtain ⟨c, t, rest, h1, h2⟩ := h
    simp only [List.filterMap_cons, h1, Option.map_some]
    have := busy_arrived _ _ _ _ _ (hb (c, t) (List.mem_of_getElem? h1)) h2
    exact List.Forall₂.cons this.2.2.1 ih

theorem given_checkinAll {s0 : State K B C} (hlen : ∀ h r, W.works h r → r.1.length = h.active.length) (tid : Nat) :
    ∀ (rs : List (Nat × Held K)) (reps : List (Rep K C)) (s s' : State K B C) (rest : List (Held K))
      (hist : List (Rec K B C)),
      List.Forall₂ (fun r rep => W.works r.2 rep) rs reps → Par E cfg s0 s hist → Given draws W hist →
      (open_ hist).Perm (rs.map (·.2) ++ rest) → checkinAll draws tid s (rs.zip reps) = (s', none) →
      ∃ hist' : List (Rec K B C), Par E cfg s0 s' hist' ∧ Given draws W hist' ∧ (open_ hist').Perm rest ∧
        hist'.map (·.seed) = hist.map (·.seed) ∧ hist'.map (·.held) = hist.map (·.held) := by
  intro rs
  induction rs with
  | nil =>
    intro reps s s' rest hist _ hp hG hperm h
    simp only [List.zip_nil_left, checkinAll] at h
    obtain rfl := (Prod.mk.inj h).1
    exact ⟨hist, hp, hG, by simpa using hperm, rfl, rfl⟩
  | cons r rs ih =>
    intro reps s s' rest hist hF hp hG hperm h
    cases hF with
    | @cons _ rep _ reps' hwk hF' =>
    simp only [List.zip_cons_cons, checkinAll] at h
    have hm : r.2 ∈ open_ hist := hperm.mem_iff.2 (by simp)
    obtain ⟨e, he, hh⟩ := List.mem_map.1 hm
    rw [List.mem_filter] at he
    obtain ⟨hin, hnone⟩ := he
    have hnone : e.reply = none := by
      cases hr : e.reply with
      | none => rfl
      | some x => rw [hr] at hnone; simp at hnone
    obtain ⟨l1, l2, rfl⟩ := List.append_of_mem hin
    cases hc : checkin s (heldArgs r.2 rep.1 draws rep.2 none (some (toString tid))) with
    | mk s1 err =>
      rw [hc] at h
      cases err with
      | some x => simp only at h; cases (Prod.mk.inj h).2
      | none =>
        simp only at h
        have hnew := Par.checkin e ⟨rep.1, draws, rep.2, none, some (toString tid)⟩ hp hnone
          ⟨by rw [hh]; exact hlen _ _ hwk, by intro b hb; cases hb⟩ (by simpa only [callOf, hh] using hc)
        have hG' : Given draws W (l1 ++ { e with reply := some ⟨rep.1, draws, rep.2, none, some (toString tid)⟩ } :: l2) := by
          intro f hf x hx
          simp only [List.mem_append, List.mem_cons] at hf
          rcases hf with hf | rfl | hf
          · exact hG f (by simp [hf]) x hx
          · simp only [Option.some.injEq] at hx
            subst hx
            exact ⟨rep, _, by rw [hh]; exact hwk, rfl⟩
          · exact hG f (by simp [hf]) x hx
        obtain ⟨hist', g1, g0, g2, g3, g4⟩ := ih reps' s1 s' rest _ hF' hnew hG' (by
          have h1 : open_ (l1 ++ e :: l2) = open_ l1 ++ e.held :: open_ l2 := by simp [open_, hnone]
          rw [h1, hh] at hperm
          have h2 := List.perm_middle.symm.trans hperm
          rw [List.map_cons, List.cons_append, List.perm_cons] at h2
          simpa [open_] using h2) h
        exact ⟨hist', g1, g0, g2, by rw [g3]; simp, by rw [g4]; simp⟩

/-- A granted region enters the history. -/
theorem par_propose {m : Nat} (hE : E.OK m) (s0 : State K B C) (p p1 : Parent K B C) (H : PInv m w p)
    (hist : List (Rec K B C)) (hp : Par E cfg s0 p.sup hist) (hn : Near E cfg p.sup) (ho : (open_ hist).Perm (outs p))
    (hc : p.patchcat = hist.mapIdx fun i e => (i + 1, e.held.active.map (·.sourceIndex))) (seeds : List Nat)
    (h : propose E cfg p ⟨seeds, none, []⟩ = (p1, .ok true)) :
    ∃ new : List (Rec K B C), Par E cfg s0 p1.sup (hist ++ new) ∧ (∀ e ∈ new, e.reply = none) ∧
      (open_ (hist ++ new)).Perm (outs p1) ∧
      p1.patchcat = (hist ++ new).mapIdx fun i e => (i + 1, e.held.active.map (·.sourceIndex)) := by
  unfold propose at h
  simp only at h
  cases htr : tryCheckout E cfg p.sup seeds with
  | mk s1 res =>
    rw [htr] at h
    cases res with
    | error e => cases (Prod.mk.inj h).2
    | ok o =>
      cases o with
      | none => cases (Prod.mk.inj h).2
      | some hd =>
        obtain ⟨new, g1, g2, g3⟩ := par_try hist seeds p.sup s1 _ hp hn htr
        simp only at h
        rcases submit_cases p.q H.queue (p.taskid + 1, hd) with ⟨hi, _⟩ | ⟨c, rest, hi, hsub⟩
        · exact absurd hi H.idle
        rw [hsub] at h
        obtain ⟨rfl, -⟩ := Prod.mk.inj h
        refine ⟨new, g1, fun e he => (g3 e he).2, ?_, ?_⟩
        · rw [open_append]
          have : open_ new = [hd] := by
            rw [← show new.map (·.held) = [hd] from g2]
            unfold open_
            rw [List.filter_eq_self.2]
            intro e he
            simp [(g3 e he).2]
          rw [this]
          simp only [outs, List.map_append, List.map_cons, List.map_nil]
          exact ho.append_right _
        · have hlen : hist.length = p.taskid := by
            have := congrArg List.length H.cat
            rw [hc] at this
            simpa using this
          have hl := congrArg List.length g2
          simp only [List.length_map, Option.toList_some, List.length_singleton] at hl
          obtain ⟨e, rfl⟩ := List.length_eq_one_iff.1 hl
          simp only [List.map_cons, List.map_nil, Option.toList_some, List.cons.injEq, and_true] at g2
          simp only [hc, List.mapIdx_append, List.mapIdx_cons, List.mapIdx_nil, g2, hlen, Nat.zero_add]

/-- The parent has left its loop and received the last answers. -/
def Closed : PC → Prop
  | .close _ => True
  | .closing _ => True
  | .done => True
  | _ => False

/-- The history of a state of the system. -/
structure Describes (E : Env K) (cfg : Config K) (draws : Int) (W : World K C) (s0 : State K B C) (n : Net K B C)
    (hist : List (Rec K B C)) : Prop where
  par : Par E cfg s0 n.p.sup hist
  given : Given draws W hist
  out : ¬ Closed n.pc → (open_ hist).Perm (outs n.p)
  cat : n.p.patchcat = hist.mapIdx fun i e => (i + 1, e.held.active.map (·.sourceIndex))

omit [CommRing K] [LinearOrder K] in
theorem finish_scene (p p2 : Parent K B C) (r : Except PErr (List (Nat × Held K))) (h : finish p = (p2, r)) :
    p2.sup = p.sup ∧ p2.patchcat = p.patchcat := by
  unfold finish at h
  split at h
  · cases h; exact ⟨rfl, rfl⟩
  · split at h <;> (cases h; exact ⟨rfl, rfl⟩)

theorem describes_step {m : Nat} (hE : E.OK m) (hlen : ∀ h r, W.works h r → r.1.length = h.active.length)
    (hF : ∀ h, ¬ W.fails h) (s0 : State K B C) (p0 : Parent K B C) (H0 : PInv m w p0) (n n' : Net K B C)
    (I : NInv E cfg draws W m w p0 n) (hn : n.pc = .top → Near E cfg n.p.sup) (h : Net.Step E cfg draws W w n n')
    (hist : List (Rec K B C)) (D : Describes E cfg draws W s0 n hist) :
    ∃ hist', Describes E cfg draws W s0 n' hist' := by
  have I' := ninv_step hE hlen hF p0 H0 n n' I h
  obtain ⟨p, pc, lane⟩ := n
  obtain ⟨Iq, Ib, Ii, Ip⟩ := I
  obtain ⟨d1, d2, d3, d4⟩ := D
  simp only at Iq Ib Ii Ip d1 d3 d4 hn
  cases h with
  | @propose p1 seeds c t hpc hu hs hp hsent =>
    simp only at hpc
    subst hpc
    have HP := loop_inv hE Ip H0
    obtain ⟨new, g1, g2, g3, g4⟩ := par_propose hE s0 p p1 HP hist d1 (hn rfl) (d3 (by simp [Closed])) d4 seeds hp
    exact ⟨_, g1, given_append _ _ d2 g2, fun _ => g3, g4⟩
  | @refuse p1 seeds hpc hu hs hp =>
    simp only at hpc
    subst hpc
    obtain ⟨rfl, -⟩ := propose_false hE p p1 (loop_inv hE Ip H0) seeds hs hp
    exact ⟨hist, d1, d2, fun _ => d3 (by simp [Closed]), d4⟩
  | @fail p1 seeds e hpc hu hs hp =>
    simp only at hpc
    subst hpc
    obtain ⟨rfl, -⟩ := propose_error hE p p1 (loop_inv hE Ip H0) seeds hs _ hp
    exact ⟨hist, d1, d2, fun _ => d3 (by simp [Closed]), d4⟩
  | crashSubmit => exact I'.pc.elim
  | go c hpc _ =>
    simp only at hpc
    subst hpc
    exact ⟨hist, d1, d2, fun _ => d3 (by simp [Closed]), d4⟩
  | @collect p2 got idx reps hpc hL hA hab =>
    simp only at hpc
    subst hpc
    obtain ⟨p1, seeds, h1, h2, h3, h4, H1⟩ := Ip
    have hball : blockingOf p got ≠ .all := by unfold blockingOf; split <;> simp
    have hG := arrived_given _ Ib idx reps hA
    unfold absorb at hab
    rcases collect_cases p.q H1.queue _ (some idx) hL with ⟨_, hb, _⟩ | ⟨hh, _⟩ |
      ⟨hh, _⟩ | ⟨hh, q', idx', hc, Hq', hid, hnd, hlt, hne, hsome, -, hperm⟩
    · exact absurd hb hball
    · exact absurd hh H1.out
    · exact absurd hh H1.out
    obtain ⟨_, _, q'', hc', _⟩ := collect_some p.q H1.queue _ idx hball H1.out hL
    rw [hc'] at hc
    have hq := (Prod.mk.inj hc).1
    have hre := Except.ok.inj (Prod.mk.inj hc).2
    subst hq
    simp only [hc'] at hab
    cases hci : checkinAll draws p.taskid p.sup ((idx.filterMap fun i => (p.q.handles[i]?).map (·.2)).zip reps) with
    | mk s' err =>
      rw [hci] at hab
      cases err with
      | some e => cases (Prod.mk.inj hab).2
      | none =>
        simp only at hab
        obtain rfl := (Prod.mk.inj hab).1
        obtain ⟨hist', k1, k0, k2, -, k3⟩ := given_checkinAll hlen p.taskid _ reps p.sup s'
          (q''.handles.map fun x => x.2.2) hist hG d1 d2 (by
            refine (d3 (by simp [Closed])).trans ?_
            have := hperm.map (fun x => x.2.2)
            rw [List.map_append] at this
            rw [hre]
            simpa [outs, List.map_map, Function.comp_def, List.map_filterMap] using this) hci
        refine ⟨hist', k1, k0, fun _ => k2, ?_⟩
        have hm : ∀ l : List (Rec K B C), (l.mapIdx fun i e => (i + 1, e.held.active.map (·.sourceIndex))) =
            (l.map (·.held)).mapIdx fun i h => (i + 1, h.active.map (·.sourceIndex)) := by
          intro l
          apply List.ext_getElem?
          intro i
          simp [List.getElem?_mapIdx, List.getElem?_map, Option.map_map, Function.comp_def]
        simp only [d4, hm hist', hm hist, k3]
  | crashCollect => exact I'.pc.elim
  | crashNone => exact I'.pc.elim
  | leave hpc hu =>
    simp only at hpc
    subst hpc
    exact ⟨hist, d1, d2, fun _ => d3 (by simp [Closed]), d4⟩
  | @drain p2 res hpc harr hfin =>
    obtain ⟨e1, e2⟩ := finish_scene _ _ _ hfin
    exact ⟨hist, by simpa only [e1] using d1, d2, fun h => absurd trivial h, by simpa only [e2] using d4⟩
  | crashDrain => exact I'.pc.elim
  | poison k hpc _ => exact ⟨hist, d1, d2, fun h => absurd trivial h, d4⟩
  | poisoned k hpc _ => exact ⟨hist, d1, d2, fun h => absurd trivial h, d4⟩
  | finish k hpc _ => exact ⟨hist, d1, d2, fun h => absurd trivial h, d4⟩
  | child c l hc hl => exact ⟨hist, d1, d2, d3, d4⟩

theorem describes_run (cat : List (Row K)) (hE : E.OK cat.length) (bounds : List B) (one : C) (hw : 1 ≤ w)
    (hlen : ∀ h r, W.works h r → r.1.length = h.active.length) (hF : ∀ h, ¬ W.fails h) (n : Net K B C)
    (h : NearRun E cfg draws W w (init (ingest cat bounds one) w) n) :
    ∃ hist, Describes E cfg draws W (ingest cat bounds one) n hist := by
  have H0 := pinv_start _ (inv_fresh cat bounds one) rfl hw
  induction h with
  | nil =>
    refine ⟨[], Par.start, fun e he => (by cases he), fun _ => ?_, rfl⟩
    exact List.Perm.refl _
  | step hr hn hs ih =>
    obtain ⟨hist, D⟩ := ih
    obtain ⟨k, j, hk⟩ := hr.run
    have I := (run_inv (cfg := cfg) (draws := draws) hE hlen hF _ H0 _ _ _ _ (ninv_init _ H0) hk).1
    exact describes_step hE hlen hF _ _ H0 _ _ I hn hs hist D

/-! ## The claims -/

/-- C134: at any moment of a distributed run, with any number of children and in any interleaving, there is a run of a
single process that fits one region after the other, in which

* each region holds the very rows, bounds and covariances that were sent to a child, in the order of the task numbers,
* each answer is one that the work function gave to that region, checked in with the configured number of draws,

and which ends with the same parameters, counts, bounds, covariances and per-source logs.  The regions that are missing
from it are those out with a child; when the run is over, those whose answers were received last and thrown away. -/
theorem C134_single (cat : List (Row K)) (hE : E.OK cat.length) (hloc : SortsLocally E) (bounds : List B) (one : C)
    (hw : 1 ≤ w) (hlen : ∀ h r, W.works h r → r.1.length = h.active.length) (hF : ∀ h, ¬ W.fails h) (n : Net K B C)
    (h : NearRun E cfg draws W w (init (ingest cat bounds one) w) n) :
    ∃ (hist : List (Rec K B C)) (t : State K B C),
      n.p.patchcat = (hist.mapIdx fun i e => (i + 1, e.held.active.map (·.sourceIndex))) ∧
      Seq E cfg (ingest cat bounds one) (hist.filter fun e => e.reply.isSome) t ∧
      (∀ e ∈ hist, ∀ r, e.reply = some r →
        ∃ x tid, W.works e.held x ∧ r = ⟨x.1, draws, x.2, none, tid⟩) ∧
      t.rows = n.p.sup.rows.map (fun r => { r with isActive := false, isValid := true }) ∧
      t.bounds = n.p.sup.bounds ∧ t.covs = n.p.sup.covs ∧
      (∀ i, (logGet t.sourcelog i).getD [] = (logGet n.p.sup.sourcelog i).getD []) ∧
      t.patchlog.Perm n.p.sup.patchlog ∧
      (n.pc = .top → ((hist.filter fun e => e.reply.isNone).map (·.held)).Perm (n.p.q.handles.map fun x => x.2.2)) ∧
      ((∀ e ∈ hist, e.reply ≠ none) → t.rows = n.p.sup.rows) := by
  obtain ⟨hist, D⟩ := describes_run cat hE bounds one hw hlen hF n h
  obtain ⟨t, g1, g2, g3, g4, g5, g6, g7⟩ := C132_serial cat hE hloc bounds one n.p.sup hist D.par
  refine ⟨hist, t, D.cat, g1, D.given, g2, g3, g4, g5, g6, fun ht => ?_, fun ha => (g7 ha).1⟩
  exact D.out (by rw [ht]; simp [Closed])

/-- C134 (number of children): if the work function gives one answer to each region, two runs with different numbers of
children, or with a different order of events, in which the regions were granted around the same seeds in the same
order, hand out the same regions and end with the same catalog, bounds and covariances, once all is checked in. -/
theorem C134_children (cat : List (Row K)) (hE : E.OK cat.length) (hloc : SortsLocally E) (bounds : List B) (one : C)
    (f : Held K → Rep K C) (hlen : ∀ h, (f h).1.length = h.active.length) (w w' : Nat) (hw : 1 ≤ w) (hw' : 1 ≤ w')
    (eager eager' : Bool) (n n' : Net K B C)
    (h : NearRun E cfg draws ⟨eager, fun h r => r = f h, fun _ => False⟩ w (init (ingest cat bounds one) w) n)
    (h' : NearRun E cfg draws ⟨eager', fun h r => r = f h, fun _ => False⟩ w' (init (ingest cat bounds one) w') n') :
    ∃ hist hist' : List (Rec K B C),
      n.p.patchcat = (hist.mapIdx fun i e => (i + 1, e.held.active.map (·.sourceIndex))) ∧
      n'.p.patchcat = (hist'.mapIdx fun i e => (i + 1, e.held.active.map (·.sourceIndex))) ∧
      (n.pc = .top → n.p.q.handles = [] → ∀ e ∈ hist, e.reply ≠ none) ∧
      (n'.pc = .top → n'.p.q.handles = [] → ∀ e ∈ hist', e.reply ≠ none) ∧
      (hist.map (·.seed) = hist'.map (·.seed) → (∀ e ∈ hist ++ hist', e.reply ≠ none) →
        n.p.sup.rows = n'.p.sup.rows ∧ n.p.sup.bounds = n'.p.sup.bounds ∧ n.p.sup.covs = n'.p.sup.covs ∧
        hist.map (·.held) = hist'.map (·.held)) := by
  obtain ⟨hist, D⟩ := describes_run cat hE bounds one hw (by rintro h r rfl; exact hlen h) (fun _ h => h) n h
  obtain ⟨hist', D'⟩ := describes_run cat hE bounds one hw' (by rintro h r rfl; exact hlen h) (fun _ h => h) n' h'
  have closed : ∀ (m : Net K B C) (l : List (Rec K B C)) (W : World K C), Describes E cfg draws W (ingest cat bounds one) m l →
      m.pc = .top → m.p.q.handles = [] → ∀ e ∈ l, e.reply ≠ none := by
    intro m l W D ht h0 e he hn
    have := (D.out (by rw [ht]; simp [Closed])).mem_iff.1 (mem_open _ _ he hn)
    simp [outs, h0] at this
  refine ⟨hist, hist', D.cat, D'.cat, closed n hist _ D, closed n' hist' _ D', ?_⟩
  intro hs hall
  refine C132_arrival cat hE hloc bounds one (fun h _ _ => ⟨(f h).1, draws, (f h).2, none, none⟩) n.p.sup n'.p.sup
    hist hist' D.par D'.par hs ?_
  intro e he
  cases hr : e.reply with
  | none => exact absurd hr (hall e he)
  | some r =>
    rcases List.mem_append.1 he with he | he
    · obtain ⟨x, tid, hx, hrx⟩ := D.given e he r hr
      obtain rfl : x = f e.held := hx
      exact ⟨tid, by rw [hrx]⟩
    · obtain ⟨x, tid, hx, hrx⟩ := D'.given e he r hr
      obtain rfl : x = f e.held := hx
      exact ⟨tid, by rw [hrx]⟩

/-! ## A concrete run -/

/-- The work function of the example: every source moves by two. -/
def shift (h : Held Int) : Rep Int Nat := (h.active.map fun r => { r.par with ra := r.par.ra + 2 }, none)
/-- Sends wait for reception. -/
def worldS : World Int Nat := ⟨false, fun h r => r = shift h, fun _ => False⟩
/-- The parent after the answer was received, -/
def parS2 : Parent Int Nat Nat := (absorb 5 par1 true ⟨[], some [0], [shift task1.2]⟩).1
/-- and after the queue was closed. -/
def parS3 : Parent Int Nat Nat := (finish parS2).1

/-- A run that meets the hypotheses of `C134_single` and `C134_children`: one child fits one source, which moves. -/
theorem runS : ∃ n : Net Int Nat Nat, NearRun (lineEnv [0]) cfgP 5 worldS 1 (init scene1 1) n ∧ n.pc = .done ∧
    n.p.sup.rows.map (fun r => (r.par.ra, r.nIter)) = [(2, 5)] := by
  have e1 : propose (lineEnv [0]) cfgP (start scene1 1) ⟨[0], none, []⟩ = (par1, .ok true) := by rfl
  have s1 : par1.q.sent = (start scene1 1).q.sent ++ [(1, some task1)] := by rfl
  have e2 : absorb 5 par1 true ⟨[], some [0], [shift task1.2]⟩ = (parS2, none) := by rfl
  have u1 : undone cfgP (start scene1 1).sup = true := by decide +kernel
  have u2 : undone cfgP parS2.sup = false := by decide +kernel
  have e3 : finish parS2 = (parS3, .ok []) := by rfl
  have h2 : parS2.q.handles = [] := by rfl
  have lg : parS3.sup.rows.map (fun r => (r.par.ra, r.nIter)) = [(2, 5)] := by decide +kernel
  have mem : 1 ∈ List.range' 1 1 := by decide
  have n1 : Near (lineEnv [0]) cfgP scene1 := nearB_sound _ _ _ (by decide +kernel)
  have n2 : Near (lineEnv [0]) cfgP parS2.sup := nearB_sound _ _ _ (by decide +kernel)
  have r0 := NearRun.nil (E := lineEnv [0]) (cfg := cfgP) (draws := 5) (W := worldS) (w := 1) (n0 := init scene1 1)
  have r1 := NearRun.step r0 (fun _ => n1) (Step.propose [0] 1 task1 rfl u1 (by simp) e1 s1)
  have r2 := NearRun.step r1 (by intro h; cases h)
    (Step.child 1 ⟨[], [], .work task1⟩ mem (LStep.task task1 [] []))
  have r3 := NearRun.step r2 (by intro h; cases h) (Step.go 1 rfl (Or.inr rfl))
  have r4 := NearRun.step r3 (by intro h; cases h)
    (Step.child 1 ⟨[], [(1, shift task1.2)], .sent⟩ mem (LStep.answer task1 _ [] [] rfl))
  have r5 := NearRun.step r4 (by intro h; cases h) (Step.collect true [0] [shift task1.2] rfl
    (legalB_sound _ _ _ (by decide +kernel))
    (List.Forall₂.cons ⟨1, task1, [], rfl, rfl⟩ List.Forall₂.nil) e2)
  have r6 := NearRun.step r5 (fun _ => n2) (Step.leave rfl u2)
  have r7 := NearRun.step r6 (by intro h; cases h) (Step.drain [] rfl (by
      intro x hx
      have : x ∈ parS2.q.handles := hx
      rw [h2] at this
      cases this) e3)
  have r8 := NearRun.step r7 (by intro h; cases h) (Step.poison 1 rfl (by decide +kernel))
  have r9 := NearRun.step r8 (by intro h; cases h)
    (Step.child 1 ⟨[none], [], .recv⟩ mem (LStep.free [none] [] (Or.inr rfl)))
  have r10 := NearRun.step r9 (by intro h; cases h) (Step.child 1 ⟨[], [], .stopped⟩ mem (LStep.stop [] []))
  have r11 := NearRun.step r10 (by intro h; cases h) (Step.poisoned 1 rfl (Or.inr rfl))
  have r12 := NearRun.step r11 (by intro h; cases h) (Step.finish 2 rfl (by decide +kernel))
  exact ⟨_, r12, rfl, lg⟩

example : (∀ h : Held Int, (shift h).1.length = h.active.length) ∧ (lineEnv [0]).OK [mkRow 0 0].length ∧
    SortsLocally (lineEnv [0]) :=
  ⟨fun h => by simp [shift], lineEnv_ok _, lineEnv_local _⟩

end Forcepho.Dispatcher.System
