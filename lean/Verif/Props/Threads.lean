import Verif.ThreadLemmas
import Verif.Props.StapA

/-
C66: threads do not disturb each other.
-/

namespace H264.Props
open H264 H264.Spec H264.Task

/-- C66: a program has any number of threads, each with its own parser state and its own list of calls.  Whatever the order in which their
steps are taken, and whatever is in the counter, when all have finished each thread has got the answers that it would have got alone
(`Answers`), except to `get_unimplemented_count`; no thread has undefined behaviour. -/
theorem C66_results {nd : Bool} {scripts : List (Store × List Call)} (hs : ∀ x ∈ scripts, Reachable x.1 ∧ ∀ call ∈ x.2, Call.Small call)
    {c n : Nat} {g : Threads} (h : Threads.Steps n ⟨scripts.map fun x => threadT nd x.2 x.1, c⟩ g) (hf : g.Finished) :
    ∃ outs : List Outcome, g.tasks = outs.map (fun o => .done (.val o.answers)) ∧
      Each (fun x o => Answers nd 0 x.1 x.2 o.answers o.seen o.count) scripts outs := by
  obtain ⟨size, gs, hi⟩ := inv_begin (nd := nd) (rs := True) c (fun x hx => ⟨(hs x hx).1, (hs x hx).2, fun _ => trivial⟩)
  obtain ⟨_, gs', _, h1, h2, _, _, _⟩ := inv_steps h hi
  obtain ⟨outs, e1, e2, _⟩ := follows_done h2 hf
  rw [h1] at e2
  exact ⟨outs, e1, e2⟩

/-- C66: if no thread resets the counter, no count is lost: in the end the counter has grown by what the threads have counted together.
What a thread reads is what the counter was in the beginning, what it has counted itself by then, and a number of counts by the others,
which never decreases. -/
theorem C66_counter {nd : Bool} {scripts : List (Store × List Call)} (hs : ∀ x ∈ scripts, Reachable x.1 ∧ ∀ call ∈ x.2, Call.Small call)
    (hr : ∀ x ∈ scripts, Call.reset ∉ x.2) {c n : Nat} {g : Threads}
    (h : Threads.Steps n ⟨scripts.map fun x => threadT nd x.2 x.1, c⟩ g) (hf : g.Finished) :
    ∃ outs : List Outcome, g.tasks = outs.map (fun o => .done (.val o.answers)) ∧
      Each (fun x o => Answers nd 0 x.1 x.2 o.answers o.seen o.count) scripts outs ∧
      g.cnt = c + (outs.map (·.count)).sum ∧ ∀ o ∈ outs, Reads c ((outs.map (·.count)).sum - o.count) o.seen := by
  obtain ⟨size, gs, hi⟩ := inv_begin (nd := nd) (rs := False) c (fun x hx => ⟨(hs x hx).1, (hs x hx).2, fun h => hr x hx h⟩)
  obtain ⟨_, gs', _, h1, h2, _, h4, h5⟩ := inv_steps h hi
  obtain ⟨outs, e1, e2, e3, e4, _⟩ := follows_done h2 hf
  rw [h1] at e2
  refine ⟨outs, e1, e2, by rw [h4 id, e3], fun o ho => ?_⟩
  have h6 : (o.count, o.seen) ∈ gs'.map (fun x => (x.own, x.seen)) := by
    rw [e4]
    exact List.mem_map.mpr ⟨o, ho, rfl⟩
  obtain ⟨x, hx, e⟩ := List.mem_map.mp h6
  have e5 : x.own = o.count := congrArg Prod.fst e
  have e6 : x.seen = o.seen := congrArg Prod.snd e
  rw [← e3, ← e5, ← e6]
  exact h5 id x hx

/-- C66: every execution ends, whatever the order of the steps: there is a number of steps that all complete executions take, and an
execution that has taken fewer can be continued. -/
theorem C66_terminates {nd : Bool} {scripts : List (Store × List Call)} (hs : ∀ x ∈ scripts, Reachable x.1 ∧ ∀ call ∈ x.2, Call.Small call)
    (c : Nat) : ∃ total, ∀ {n : Nat} {g : Threads}, Threads.Steps n ⟨scripts.map fun x => threadT nd x.2 x.1, c⟩ g →
      n ≤ total ∧ (n = total ↔ g.Finished) ∧ (n < total → ∃ g', Threads.Step g g') := by
  obtain ⟨size, gs, hi⟩ := inv_begin (nd := nd) (rs := True) c (fun x hx => ⟨(hs x hx).1, (hs x hx).2, fun _ => trivial⟩)
  refine ⟨size, fun {n g} h => ?_⟩
  obtain ⟨s, gs', e, _, h2, h3, _, _⟩ := inv_steps h hi
  have h4 : n = size ↔ g.Finished := by
    constructor
    · intro hn
      exact follows_zero h2 (by omega)
    · intro hf
      obtain ⟨_, _, _, _, _, h5⟩ := follows_done h2 hf
      omega
  refine ⟨by omega, h4, fun hn => ?_⟩
  rcases threads_step g with hf | h'
  · have := h4.mpr hf
    omega
  · exact h'

/-- C66: a thread that is alone gets to read exactly what has been counted since the counter was reset last. -/
theorem C66_alone {nd : Bool} {σ : Store} (hσ : Reachable σ) {calls : List Call} (hs : ∀ call ∈ calls, Call.Small call)
    {c n : Nat} {g : Threads} (h : Threads.Steps n ⟨[threadT nd calls σ], c⟩ g) (hf : g.Finished) :
    ∃ as', g.tasks = [.done (.val as')] ∧ Alone nd c σ calls as' g.cnt := by
  have key : ∀ {n : Nat} {g g' : Threads}, Threads.Steps n g g' → (∃ t, g.tasks = [t] ∧
      Gives (fun c' r => ∃ as', r = .val as' ∧ Alone nd c σ calls as' c') g.cnt t) → ∃ t, g'.tasks = [t] ∧
      Gives (fun c' r => ∃ as', r = .val as' ∧ Alone nd c σ calls as' c') g'.cnt t := by
    intro n g g' h
    induction h with
    | refl g => exact id
    | step h _ ih =>
      rintro ⟨t, e, hg⟩
      refine ih ?_
      cases h with
      | @mk l r t0 t1 c0 c1 hst =>
        have hl : l = [] ∧ r = [] ∧ t0 = t := by
          cases l with
          | nil => cases r with
            | nil => exact ⟨rfl, rfl, by cases e; rfl⟩
            | cons _ _ => cases e
          | cons y ys => cases ys <;> cases e
        obtain ⟨rfl, rfl, rfl⟩ := hl
        exact ⟨t1, rfl, gives_step hst hg⟩
  obtain ⟨t, e, hg⟩ := key h ⟨_, rfl, threadT_gives calls hσ hs c⟩
  obtain ⟨r, rfl⟩ := hf t (by rw [e]; simp)
  obtain ⟨as', rfl, ha⟩ := hg
  exact ⟨as', e, ha⟩

/-- There is an execution in which all threads finish. -/
theorem C66_completes {nd : Bool} {scripts : List (Store × List Call)} (hs : ∀ x ∈ scripts, Reachable x.1 ∧ ∀ call ∈ x.2, Call.Small call)
    (c : Nat) : ∃ n g, Threads.Steps n ⟨scripts.map fun x => threadT nd x.2 x.1, c⟩ g ∧ g.Finished := by
  obtain ⟨total, h⟩ := C66_terminates (nd := nd) hs c
  have key : ∀ k, k ≤ total → ∃ g, Threads.Steps k ⟨scripts.map fun x => threadT nd x.2 x.1, c⟩ g := by
    intro k
    induction k with
    | zero => exact fun _ => ⟨_, .refl _⟩
    | succ k ih =>
      intro hk
      obtain ⟨g, hg⟩ := ih (by omega)
      obtain ⟨g', hg'⟩ := (h hg).2.2 (by omega)
      exact ⟨g', steps_snoc hg hg'⟩
  obtain ⟨g, hg⟩ := key total (Nat.le_refl _)
  exact ⟨total, g, hg, (h hg).2.1.mp rfl⟩

/-- C66: if no thread looks at the counter, all complete executions end in the same way, whatever the order of the steps and whatever is in
the counter in the beginning. -/
theorem C66_deterministic {nd : Bool} {scripts : List (Store × List Call)} (hs : ∀ x ∈ scripts, Reachable x.1 ∧ ∀ call ∈ x.2, Call.Small call)
    (hc : ∀ x ∈ scripts, Call.count ∉ x.2) {c c' n n' : Nat} {g g' : Threads}
    (h : Threads.Steps n ⟨scripts.map fun x => threadT nd x.2 x.1, c⟩ g) (hf : g.Finished)
    (h' : Threads.Steps n' ⟨scripts.map fun x => threadT nd x.2 x.1, c'⟩ g') (hf' : g'.Finished) : g.tasks = g'.tasks := by
  obtain ⟨outs, e, ha⟩ := C66_results hs h hf
  obtain ⟨outs', e', ha'⟩ := C66_results hs h' hf'
  rw [e, e']
  clear h hf h' hf' e e' hs
  induction ha generalizing outs' with
  | nil => cases ha'; rfl
  | cons h1 _ ih =>
    cases ha' with
    | cons h2 h3 =>
      rw [List.map_cons, List.map_cons, ih (fun x hx => hc x (List.mem_cons_of_mem _ hx)) _ h3, (answers_unique (hc _ (by simp)) h1 h2).1]

/-! ### Examples -/

/-- A prefix NAL unit with an extension that is not implemented: it is counted. -/
def exMvcUnit : List UInt8 := [14, 0, 0, 128]

theorem exMvc_counted (nd : Bool) : parseNalUnit nd {} exMvcUnit 0 exMvcUnit.length {} 0 = .val (none, {}, 1) := by
  have h : ∃ x, parseNalUnit nd {} exMvcUnit 0 exMvcUnit.length {} 0 = .val x ∧ (x.1.isNone = true ∧ x.2.2 = 1) := by
    cases nd <;> exact exists_dec (by decide +kernel)
  obtain ⟨⟨n, σ, c⟩, h1, h2, rfl⟩ := h
  cases n with
  | some n => cases h2
  | none => rw [h1, parseNalUnit_none (data := exMvcUnit) (by decide) (by decide) h1]

/-- Two threads that parse such a unit and look at the counter. -/
def exScripts : List (Store × List Call) :=
  [({}, [.nalUnit {} exMvcUnit, .count]), ({}, [.count, .nalUnit {} exMvcUnit, .nalUnit {} exMvcUnit, .count])]

theorem exScripts_ok : ∀ x ∈ exScripts, Reachable x.1 ∧ ∀ call ∈ x.2, Call.Small call := by
  intro x hx
  simp only [exScripts, List.mem_cons, List.not_mem_nil, or_false] at hx
  have h1 : Call.Small (.nalUnit {} exMvcUnit) := by show exMvcUnit.length < 2 ^ 32; decide
  have h2 : Call.Small .count := trivial
  rcases hx with rfl | rfl
  · exact ⟨.empty, fun call hc => by
      simp only [List.mem_cons, List.not_mem_nil, or_false] at hc
      rcases hc with rfl | rfl <;> assumption⟩
  · exact ⟨.empty, fun call hc => by
      simp only [List.mem_cons, List.not_mem_nil, or_false] at hc
      rcases hc with rfl | rfl | rfl | rfl <;> assumption⟩

/-- All three are counted, and the first thread reads 1, 2 or 3 if the counter begins at 0. -/
example (nd : Bool) : ∃ n g, Threads.Steps n ⟨exScripts.map fun x => threadT nd x.2 x.1, 0⟩ g ∧ g.Finished ∧ g.cnt = 3 ∧
    ∃ v t, g.tasks = [.done (.val [.nalUnit none, .count v]), t] ∧ 1 ≤ v ∧ v ≤ 3 := by
  obtain ⟨n, g, h, hf⟩ := C66_completes (nd := nd) exScripts_ok 0
  refine ⟨n, g, h, hf, ?_⟩
  obtain ⟨outs, e1, e2, e3, e4⟩ := C66_counter exScripts_ok (by
    intro x hx
    simp only [exScripts, List.mem_cons, List.not_mem_nil, or_false] at hx
    rcases hx with rfl | rfl <;> simp) h hf
  unfold exScripts at e2
  cases e2 with
  | @cons _ o _ _ ha e2 =>
    cases e2 with
    | @cons _ o' _ _ hb e2 =>
      cases e2
      obtain ⟨as1, s1, n1⟩ := o
      obtain ⟨as2, s2, n2⟩ := o'
      dsimp only at ha hb
      have ha' : n1 = 1 ∧ ∃ v, as1 = [.nalUnit none, .count v] ∧ s1 = [(1, v)] := by
        cases ha with
        | nalUnit h1 h2 =>
          cases (exMvc_counted nd).symm.trans h1
          cases h2 with
          | count v h3 => cases h3; exact ⟨rfl, v, rfl, rfl⟩
      have hb' : n2 = 2 := by
        cases hb with
        | count v h0 =>
          cases h0 with
          | nalUnit h1 h2 =>
            cases (exMvc_counted nd).symm.trans h1
            cases h2 with
            | nalUnit h1 h2 =>
              cases (exMvc_counted nd).symm.trans h1
              cases h2 with
              | count v h3 => cases h3; rfl
      obtain ⟨rfl, v, rfl, rfl⟩ := ha'
      subst hb'
      obtain ⟨os, r1, _, r2⟩ := e4 _ (List.mem_cons_self ..)
      refine ⟨e3, v, _, e1, ?_⟩
      cases r1 with
      | @cons _ o _ _ r1 r3 =>
        have hv : v = (0 + 1 + o) % 2 ^ 32 := r1
        have ho : o ≤ 2 := r2 o (by simp)
        omega

end H264.Props
