import Verif.ShiftLemmas
import Verif.Spec.Loss
import Verif.Props.Remux

/-
C71: losing NAL units or packets without parameter sets disturbs nothing else.
C72: sending a parameter set again disturbs nothing.
-/

namespace H264.Props
open H264 H264.Spec

/-- The elements are parsed one after the other. -/
inductive Runs {α : Type} (f : List UInt8 → Store → Nat → Res (α × Store × Nat)) : List (List UInt8) → Store → Nat → List α → Store → Nat → Prop
  | nil (σ : Store) (c : Nat) : Runs f [] σ c [] σ c
  | cons {p : List UInt8} {ps : List (List UInt8)} {σ σ1 σ' : Store} {c c1 c' : Nat} {x : α} {xs : List α} :
      f p σ c = .val (x, σ1, c1) → Runs f ps σ1 c1 xs σ' c' → Runs f (p :: ps) σ c (x :: xs) σ' c'

/-- The result does not depend on the counter. -/
def Shift {α : Type} (f : List UInt8 → Store → Nat → Res (α × Store × Nat)) : Prop :=
  ∀ p σ c x σ' c', f p σ c = .val (x, σ', c') → ∃ n, c' = c + n ∧ ∀ d, f p σ d = .val (x, σ', d + n)

theorem Runs.length {α : Type} {f : List UInt8 → Store → Nat → Res (α × Store × Nat)} {ps : List (List UInt8)} {σ σ' : Store} {c c' : Nat}
    {xs : List α} (h : Runs f ps σ c xs σ' c') : xs.length = ps.length := by
  induction h with
  | nil => rfl
  | cons _ _ ih => rw [List.length_cons, List.length_cons, ih]

theorem Runs.shift {α : Type} {f : List UInt8 → Store → Nat → Res (α × Store × Nat)} (hf : Shift f) {ps : List (List UInt8)} {σ σ' : Store}
    {c c' : Nat} {xs : List α} (h : Runs f ps σ c xs σ' c') : ∃ n, c' = c + n ∧ ∀ d, Runs f ps σ d xs σ' (d + n) := by
  induction h with
  | nil σ c => exact ⟨0, rfl, fun d => .nil σ d⟩
  | cons h1 _ ih =>
    obtain ⟨n, e1, h2⟩ := hf _ _ _ _ _ _ h1
    obtain ⟨m, e2, h3⟩ := ih
    refine ⟨n + m, by omega, fun d => ?_⟩
    have := h3 (d + n)
    rw [Nat.add_assoc] at this
    exact .cons (h2 d) this

theorem Runs.append {α : Type} {f : List UInt8 → Store → Nat → Res (α × Store × Nat)} {ps qs : List (List UInt8)} {σ σ1 σ' : Store}
    {c c1 c' : Nat} {xs ys : List α} (h : Runs f ps σ c xs σ1 c1) (h' : Runs f qs σ1 c1 ys σ' c') : Runs f (ps ++ qs) σ c (xs ++ ys) σ' c' := by
  induction h with
  | nil => exact h'
  | cons h1 _ ih => exact .cons h1 (ih h')

theorem Runs.split {α : Type} {f : List UInt8 → Store → Nat → Res (α × Store × Nat)} {qs : List (List UInt8)} {σ' : Store} {c' : Nat} :
    ∀ {ps : List (List UInt8)} {σ : Store} {c : Nat} {zs : List α}, Runs f (ps ++ qs) σ c zs σ' c' →
      ∃ xs ys σ1 c1, zs = xs ++ ys ∧ Runs f ps σ c xs σ1 c1 ∧ Runs f qs σ1 c1 ys σ' c'
  | [], σ, c, zs, h => ⟨[], zs, σ, c, rfl, .nil σ c, h⟩
  | p :: ps, σ, c, _, .cons h1 h2 => by
    obtain ⟨xs, ys, σ1, c1, rfl, h3, h4⟩ := Runs.split h2
    exact ⟨_ :: xs, ys, σ1, c1, rfl, .cons h1 h3, h4⟩

/-- What is left is parsed the same if what is lost does not change the parser state. -/
theorem Runs.kept {α : Type} {f : List UInt8 → Store → Nat → Res (α × Store × Nat)} (hf : Shift f) {ps : List (List UInt8)} {σ σ' : Store}
    {c c' : Nat} {xs : List α} (h : Runs f ps σ c xs σ' c') : ∀ {m : List Bool}, m.length = ps.length →
      (∀ (i : Nat) (p : List UInt8) (x : α), m[i]? = some false → ps[i]? = some p → xs[i]? = some x →
        ∀ τ d τ' d', f p τ d = .val (x, τ', d') → τ' = τ) →
      ∃ n, c + n ≤ c' ∧ ∀ d, Runs f (kept m ps) σ d (kept m xs) σ' (d + n) := by
  induction h with
  | nil σ c =>
    intro m _ _
    refine ⟨0, Nat.le_refl _, fun d => ?_⟩
    cases m with
    | nil => exact .nil σ d
    | cons b m => cases b <;> exact .nil σ d
  | @cons p ps σ σ1 σ' c c1 c' x xs h1 _ ih =>
    intro m hm hs
    cases m with
    | nil => cases hm
    | cons b m =>
      obtain ⟨n, e1, h2⟩ := hf _ _ _ _ _ _ h1
      obtain ⟨k, e2, h3⟩ := ih (m := m) (by simpa using hm) (fun i q y h4 h5 h6 => hs (i + 1) q y (by simpa using h4) (by simpa using h5)
        (by simpa using h6))
      cases b with
      | true =>
        refine ⟨n + k, by omega, fun d => ?_⟩
        have := h3 (d + n)
        rw [Nat.add_assoc] at this
        exact .cons (h2 d) this
      | false =>
        have e := hs 0 p x rfl rfl rfl _ _ _ _ h1
        subst e
        exact ⟨k, by omega, h3⟩

theorem session_runs {nd : Bool} {ps : List (List UInt8)} {σ σ' : Store} {c c' : Nat} {xs : List (Option Rtp)} :
    Session nd ps σ c xs σ' c' ↔ Runs (fun p => parseRtpData nd p 0 p.length) ps σ c xs σ' c' := by
  constructor
  · intro h
    induction h with
    | nil σ c => exact .nil σ c
    | cons h1 _ ih => exact .cons h1 ih
  · intro h
    induction h with
    | nil σ c => exact .nil σ c
    | cons h1 _ ih => exact .cons h1 ih

/-- The contents of the NAL units that were returned. -/
def returned (rs : List (Option NalUnit)) : List (Nat × Option NaluChecksum × NalHeader × Payload) := rs.filterMap fun r => r.map contentOf

theorem inOrder_runs {nd : Bool} {opts : ParsingOptions} {us : List (Nat × List UInt8)} {σ σ' : Store} {c c' : Nat} {ns : List NalUnit}
    (h : InOrder (fun b => parseNalUnit nd opts b 0 b.length) us σ c ns σ' c') :
    ∃ rs, Runs (fun b => parseNalUnit nd opts b 0 b.length) (us.map (·.2)) σ c rs σ' c' ∧ returned rs = ns.map contentOf := by
  induction h with
  | nil σ c => exact ⟨[], .nil σ c, rfl⟩
  | skip h1 _ ih =>
    obtain ⟨rs, h2, h3⟩ := ih
    exact ⟨none :: rs, .cons h1 h2, h3⟩
  | @unit off bytes _ _ _ _ _ _ _ n ns h1 _ ih =>
    obtain ⟨rs, h2, h3⟩ := ih
    refine ⟨some n :: rs, .cons h1 h2, ?_⟩
    unfold returned at h3 ⊢
    rw [List.filterMap_cons, Option.map_some, List.map_cons, h3]
    rfl

theorem runs_inOrder {nd : Bool} {opts : ParsingOptions} {ps : List (List UInt8)} {σ σ' : Store} {c c' : Nat} {rs : List (Option NalUnit)}
    (h : Runs (fun b => parseNalUnit nd opts b 0 b.length) ps σ c rs σ' c') : (∀ p ∈ ps, p.length < 2 ^ 61) →
    ∀ {us : List (Nat × List UInt8)}, us.map (·.2) = ps →
    ∃ ns, InOrder (fun b => parseNalUnit nd opts b 0 b.length) us σ c ns σ' c' ∧ returned rs = ns.map contentOf := by
  induction h with
  | nil σ c =>
    intro _ us e
    cases us with
    | nil => exact ⟨[], .nil σ c, rfl⟩
    | cons u us => cases e
  | @cons p ps σ σ1 σ' c c1 c' x xs h1 _ ih =>
    intro hl us e
    cases us with
    | nil => cases e
    | cons u us =>
      obtain ⟨off, b⟩ := u
      simp only [List.map_cons, List.cons.injEq] at e
      obtain ⟨rfl, e⟩ := e
      obtain ⟨ns, h2, h3⟩ := ih (fun q hq => hl q (List.mem_cons_of_mem _ hq)) e
      cases x with
      | none =>
        have h5 := parseNalUnit_none (data := b) (by omega) (hl b (List.mem_cons_self ..)) h1
        subst h5
        exact ⟨ns, .skip h1 h2, h3⟩
      | some n =>
        refine ⟨_, .unit h1 h2, ?_⟩
        unfold returned at h3 ⊢
        rw [List.filterMap_cons, Option.map_some, List.map_cons, h3]
        rfl

theorem annexB_mem_le : ∀ (l : List (Bool × List UInt8)), ∀ y ∈ l, y.2.length ≤ (annexB l).length
  | [], y, hy => by cases hy
  | (long, b) :: l, y, hy => by
    rw [annexB, List.length_append, List.length_append]
    rcases List.mem_cons.mp hy with rfl | hy
    · dsimp only; omega
    · have := annexB_mem_le l y hy; omega

/-- An Annex B stream and the parses of its NAL units. -/
theorem stream_runs (nd : Bool) (opts : ParsingOptions) {us : List (Bool × List UInt8)} (hu : ∀ x ∈ us, Carriable x.2)
    (hl : (annexB us).length < 2 ^ 61) (σ : Store) (c : Nat) (x : List (Nat × Option NaluChecksum × NalHeader × Payload)) (σ' : Store) (c' : Nat) :
    (∃ bs, parseBitstream nd opts (annexB us) σ c = .val (bs, σ', c') ∧ contents bs = x) ↔
      ∃ rs, Runs (fun b => parseNalUnit nd opts b 0 b.length) (us.map (·.2)) σ c rs σ' c' ∧ returned rs = x := by
  constructor
  · rintro ⟨bs, h, rfl⟩
    obtain ⟨rs, h1, h2⟩ := inOrder_runs ((C18_annexB nd opts us hu hl σ c bs σ' c').mp h).2
    rw [annexBUnits_snd] at h1
    exact ⟨rs, h1, h2⟩
  · rintro ⟨rs, h, rfl⟩
    obtain ⟨ns, h1, h2⟩ := runs_inOrder h
      (fun p hp => by obtain ⟨y, hy, rfl⟩ := List.mem_map.mp hp; exact Nat.lt_of_le_of_lt (annexB_mem_le us y hy) hl) (annexBUnits_snd us 0)
    exact ⟨⟨{}, ns⟩, (C18_annexB nd opts us hu hl σ c _ σ' c').mpr ⟨rfl, h1⟩, h2.symm⟩

theorem shift_nal (nd : Bool) (opts : ParsingOptions) : Shift (fun b => parseNalUnit nd opts b 0 b.length) :=
  fun _ _ _ _ _ _ h => parseNalUnit_shift h

theorem shift_rtp (nd : Bool) : Shift (fun p => parseRtpData nd p 0 p.length) := fun _ _ _ _ _ _ h => parseRtpData_shift h

/-- The type of a NAL unit that was returned is that of its first byte. -/
theorem nal_type {nd : Bool} {opts : ParsingOptions} {p : List UInt8} (hl : p.length < 2 ^ 61) {σ σ' : Store} {c c' : Nat} {n : NalUnit}
    (h : parseNalUnit nd opts p 0 p.length σ c = .val (some n, σ', c')) : packetType p = some n.nal_unit_header.nal_unit_type := by
  rcases nalUnitL_cases (parseNalUnit_val (by omega) hl h) with ⟨h1, _⟩ | ⟨hd, s, q, s', h1, h2, _⟩
  · cases h1
  · cases h1
    have := header_typeL h2
    rw [List.drop_zero, List.take_length, packetType_strip] at this
    exact this

/-- A NAL unit that is not a parameter set leaves the parser state alone. -/
theorem nal_no_set {nd : Bool} {opts : ParsingOptions} {p : List UInt8} (hl : p.length < 2 ^ 61) {σ σ' : Store} {c c' : Nat}
    {n : Option NalUnit} (h : parseNalUnit nd opts p 0 p.length σ c = .val (n, σ', c'))
    (ht : ∀ t ∈ parameterSetTypes, packetType p ≠ some t) : σ' = σ := by
  refine C35_atomic (by omega) hl h (fun u hn => ?_)
  cases hn
  have h1 := nal_type hl h
  obtain ⟨h2, h3, _, _, h4, _⟩ := C50_payload_type (by omega) hl h
  refine ⟨?_, ?_, ?_⟩
  · cases hp : u.nal_unit_payload.sps with
    | none => rfl
    | some x => exact absurd (by rw [h1, h2 (by rw [hp]; rfl)]) (ht 7 (by decide))
  · cases hp : u.nal_unit_payload.pps with
    | none => rfl
    | some x => exact absurd (by rw [h1, h3 (by rw [hp]; rfl)]) (ht 8 (by decide))
  · cases hp : u.nal_unit_payload.subset_sps with
    | none => rfl
    | some x => exact absurd (by rw [h1, h4 (by rw [hp]; rfl)]) (ht 15 (by decide))

theorem mem_kept {α : Type} {x : α} : ∀ {m : List Bool} {xs : List α}, x ∈ kept m xs → x ∈ xs
  | [], _, h => by cases h
  | true :: _, [], h => by cases h
  | false :: _, [], h => by cases h
  | true :: m, y :: ys, h => by
    rcases List.mem_cons.mp h with rfl | h
    · exact List.mem_cons_self ..
    · exact List.mem_cons_of_mem _ (mem_kept h)
  | false :: m, y :: ys, h => List.mem_cons_of_mem _ (mem_kept (m := m) (xs := ys) h)

theorem kept_map {α β : Type} (g : α → β) : ∀ (m : List Bool) (xs : List α), (kept m xs).map g = kept m (xs.map g)
  | [], _ => rfl
  | true :: _, [] => rfl
  | false :: _, [] => rfl
  | true :: m, y :: ys => by
    show g y :: (kept m ys).map g = _
    rw [kept_map g m ys]
    rfl
  | false :: m, y :: ys => kept_map g m ys

theorem annexB_kept_le : ∀ (m : List Bool) (us : List (Bool × List UInt8)), (annexB (kept m us)).length ≤ (annexB us).length
  | [], _ => Nat.zero_le _
  | true :: _, [] => Nat.zero_le _
  | false :: _, [] => Nat.zero_le _
  | true :: m, (l, y) :: ys => by
    show (annexB ((l, y) :: kept m ys)).length ≤ _
    have := annexB_kept_le m ys
    rw [annexB, annexB, List.length_append, List.length_append, List.length_append, List.length_append]
    omega
  | false :: m, (l, y) :: ys => by
    show (annexB (kept m ys)).length ≤ _
    have := annexB_kept_le m ys
    rw [annexB, List.length_append, List.length_append]
    omega

/-- C71: each NAL unit of a stream gives a result, or none, and if any of the NAL units that are not parameter sets are lost, then the
others give the same results, and the parser state at the end is the same. -/
theorem C71_stream {nd : Bool} {opts : ParsingOptions} {us : List (Bool × List UInt8)} (hu : ∀ x ∈ us, Carriable x.2)
    (hl : (annexB us).length < 2 ^ 61) {σ σ' : Store} {c c' : Nat} {bs : Bitstream}
    (h : parseBitstream nd opts (annexB us) σ c = .val (bs, σ', c')) :
    ∃ rs : List (Option (Nat × Option NaluChecksum × NalHeader × Payload)), rs.length = us.length ∧ contents bs = rs.filterMap id ∧
      ∀ m : List Bool, m.length = us.length →
        (∀ (i : Nat) (u : Bool × List UInt8), m[i]? = some false → us[i]? = some u → ∀ t ∈ parameterSetTypes, packetType u.2 ≠ some t) →
        ∃ bs2 c2, parseBitstream nd opts (annexB (kept m us)) σ c = .val (bs2, σ', c2) ∧ contents bs2 = (kept m rs).filterMap id ∧ c ≤ c2 ∧
          c2 ≤ c' := by
  obtain ⟨rs, h1, h2⟩ := (stream_runs nd opts hu hl σ c _ σ' c').mp ⟨bs, h, rfl⟩
  refine ⟨rs.map (·.map contentOf), ?_, ?_, fun m hm hs => ?_⟩
  · rw [List.length_map, h1.length, List.length_map]
  · rw [← h2, List.filterMap_map]
    rfl
  · obtain ⟨n, e, h3⟩ := h1.kept (shift_nal nd opts) (m := m) (by rw [List.length_map, hm]) (fun i p x h4 h5 _ τ d τ' d' h6 => by
      rw [List.getElem?_map] at h5
      obtain ⟨u, h7, rfl⟩ := Option.map_eq_some_iff.mp h5
      exact nal_no_set (Nat.lt_of_le_of_lt (annexB_mem_le us u (List.mem_of_getElem? h7)) hl) h6 (hs i u h4 h7))
    have h3 := h3 c
    rw [← kept_map] at h3
    obtain ⟨bs2, h4, h5⟩ := (stream_runs nd opts (fun x hx => hu x (mem_kept hx)) (Nat.lt_of_le_of_lt (annexB_kept_le m us) hl) σ c _ σ' _).mpr
      ⟨_, h3, rfl⟩
    refine ⟨bs2, c + n, h4, ?_, by omega, by omega⟩
    rw [h5, ← kept_map, List.filterMap_map]
    rfl

/-- C71: if any packets without parameter sets are lost, then the others give the same results, and the parser state at the end is the
same. -/
theorem C71_packets {nd : Bool} {ps : List (List UInt8)} (hl : ∀ p ∈ ps, p.length < 2 ^ 61) {σ σ' : Store} {c c' : Nat}
    {xs : List (Option Rtp)} (h : Session nd ps σ c xs σ' c') {m : List Bool} (hm : m.length = ps.length)
    (hs : ∀ (i : Nat) (p : List UInt8) (x : Option Rtp), m[i]? = some false → ps[i]? = some p → xs[i]? = some x →
      (∀ y, x = some y → NoParameterSet y) ∧ (x = none → packetType p ≠ some 24)) :
    ∃ c2, Session nd (kept m ps) σ c (kept m xs) σ' c2 ∧ c ≤ c2 ∧ c2 ≤ c' := by
  obtain ⟨n, e, h1⟩ := (session_runs.mp h).kept (shift_rtp nd) hm (fun i p x h2 h3 h4 τ d τ' d' h5 => by
    obtain ⟨h6, h7⟩ := hs i p x h2 h3 h4
    have hp := hl p (List.mem_of_getElem? h3)
    cases x with
    | none => exact C69_refused_partial hp h5 (h7 rfl)
    | some y =>
      have h8 := C69_returned_partial hp h5
      have h9 := h6 y rfl
      have key : ∀ {β : Type} (g : Payload → Option β), (∀ q ∈ rtpPayloads y, g q = none) → (rtpPayloads y).filterMap g = [] := by
        intro β g hg
        exact List.filterMap_eq_nil_iff.mpr hg
      unfold LatestOf spsOf ppsOf subsetSpsOf at h8
      rw [key _ (fun q hq => (h9 q hq).1), key _ (fun q hq => (h9 q hq).2.1), key _ (fun q hq => (h9 q hq).2.2)] at h8
      simp only [latest_nil] at h8
      obtain ⟨a1, a2, a3⟩ := τ
      obtain ⟨b1, b2, b3⟩ := τ'
      simp only [Store.mk.injEq]
      exact ⟨funext fun id => (h8 id).1, funext fun id => (h8 id).2.1, funext fun id => (h8 id).2.2⟩)
  exact ⟨_, session_runs.mpr (h1 c), by omega, by omega⟩

/-! ### Repeated parameter sets -/

theorem payload_set_free (nd : Bool) {σ σ' τ : Store} {h : NalHeader} {s s' : LSt} {p : Payload} (ht : h.nal_unit_type ∈ parameterSetTypes)
    (he : runL nd (parsePayload σ h) s = .ok (p, σ') s') : ∃ τ', runL nd (parsePayload τ h) s = .ok (p, τ') s' := by
  rw [runL_payload] at he ⊢
  have hc : h.nal_unit_type = 7 ∨ h.nal_unit_type = 8 ∨ h.nal_unit_type = 15 := by simpa [parameterSetTypes] using ht
  have h15 : ¬ (h.nal_unit_type = 1 ∨ h.nal_unit_type = 5) := by omega
  rw [if_neg h15] at he ⊢
  rcases hc with e | e | e
  · rw [if_pos e] at he ⊢
    generalize runL nd parseSps s = r at *
    cases r with
    | ok a s1 => simp only [Out.ok.injEq, Prod.mk.injEq] at he; obtain ⟨⟨rfl, _⟩, rfl⟩ := he; exact ⟨_, rfl⟩
    | null s1 => simp only [Out.ok.injEq, Prod.mk.injEq] at he; obtain ⟨⟨rfl, _⟩, rfl⟩ := he; exact ⟨_, rfl⟩
    | bad e => cases he
  · rw [if_neg (by omega), if_pos e] at he ⊢
    generalize runL nd (parsePps 1) s = r at *
    cases r with
    | ok a s1 => simp only [Out.ok.injEq, Prod.mk.injEq] at he; obtain ⟨⟨rfl, _⟩, rfl⟩ := he; exact ⟨_, rfl⟩
    | null s1 => simp only [Out.ok.injEq, Prod.mk.injEq] at he; obtain ⟨⟨rfl, _⟩, rfl⟩ := he; exact ⟨_, rfl⟩
    | bad e => cases he
  · rw [if_neg (by omega), if_neg (by omega), if_neg (by omega), if_pos e] at he ⊢
    generalize runL nd parseSubsetSps s = r at *
    cases r with
    | ok a s1 => simp only [Out.ok.injEq, Prod.mk.injEq] at he; obtain ⟨⟨rfl, _⟩, rfl⟩ := he; exact ⟨_, rfl⟩
    | null s1 => simp only [Out.ok.injEq, Prod.mk.injEq] at he; obtain ⟨⟨rfl, _⟩, rfl⟩ := he; exact ⟨_, rfl⟩
    | bad e => cases he

/-- C72: what is returned for a parameter set does not depend on what is stored or has been counted. -/
theorem C72_state_free {nd : Bool} {opts : ParsingOptions} {p : List UInt8} (hl : p.length < 2 ^ 61) {t : Nat} (ht : t ∈ parameterSetTypes)
    (hp : packetType p = some t) {σ σ' : Store} {c c' : Nat} {n : Option NalUnit}
    (h : parseNalUnit nd opts p 0 p.length σ c = .val (n, σ', c')) (τ : Store) (d : Nat) :
    ∃ τ' d', parseNalUnit nd opts p 0 p.length τ d = .val (n, τ', d') ∧ d' + c = d + c' ∧
      LatestOf τ (n.toList.map (·.nal_unit_payload)) τ' := by
  suffices hk : ∃ τ', parseNalUnit nd opts p 0 p.length τ c = .val (n, τ', c') by
    obtain ⟨τ', h1⟩ := hk
    obtain ⟨k, e, h2⟩ := parseNalUnit_shift h1
    exact ⟨τ', d + k, h2 d, by omega, C35_nal_unit (by omega) hl (h2 d)⟩
  have h1 := parseNalUnit_val (by omega) hl h
  rw [parseNalUnit_eqL (by omega) hl] at h ⊢
  have hf : Fits nd (strip ((p.drop 0).take p.length)).length := by
    by_cases hf : Fits nd (strip ((p.drop 0).take p.length)).length
    · exact hf
    · rw [if_neg hf] at h; cases h
  rw [if_pos hf]
  rw [List.drop_zero, List.take_length] at h1 ⊢
  rcases nalUnitL_cases h1 with ⟨rfl, rfl, s, h2, rfl⟩ | ⟨hd, s, q, s', rfl, h2, h3, rfl⟩
  · refine ⟨τ, ?_⟩
    unfold nalUnitL
    rw [h2]
  · have h4 := header_typeL h2
    rw [packetType_strip, hp] at h4
    cases h4
    obtain ⟨τ', h5⟩ := payload_set_free nd (τ := τ) ht h3
    refine ⟨τ', ?_⟩
    unfold nalUnitL
    rw [h2]
    dsimp only
    rw [h5]

theorem latest_twice {α : Type} (key : α → Nat) (l : List α) (id : Nat) (old : Option α) :
    latest key l id (latest key l id old) = latest key l id old := by
  unfold latest
  cases (l.filter (fun x => key x = id)).getLast? <;> rfl

/-- Two states that agree on the parameter sets of one NAL unit type. -/
structure SameSets (t : Nat) (σ τ : Store) : Prop where
  sps : t = 7 → σ.sps = τ.sps
  pps : t = 8 → σ.pps = τ.pps
  subset_sps : t = 15 → σ.subset_sps = τ.subset_sps

theorem SameSets.trans {t : Nat} {σ τ υ : Store} (h : SameSets t σ τ) (h' : SameSets t τ υ) : SameSets t σ υ :=
  ⟨fun e => (h.sps e).trans (h'.sps e), fun e => (h.pps e).trans (h'.pps e), fun e => (h.subset_sps e).trans (h'.subset_sps e)⟩

/-- A NAL unit leaves the parameter sets of other types alone. -/
theorem nal_same {nd : Bool} {opts : ParsingOptions} {p : List UInt8} (hl : p.length < 2 ^ 61) {σ σ' : Store} {c c' : Nat}
    {n : Option NalUnit} (h : parseNalUnit nd opts p 0 p.length σ c = .val (n, σ', c')) {t : Nat} (ht : packetType p ≠ some t) :
    SameSets t σ' σ := by
  have h1 := C35_nal_unit (by omega) hl h
  cases n with
  | none => exact ⟨fun _ => funext fun id => (h1 id).1, fun _ => funext fun id => (h1 id).2.1, fun _ => funext fun id => (h1 id).2.2⟩
  | some n =>
    have h2 := nal_type hl h
    rw [h2] at ht
    obtain ⟨h3, h4, _, _, h5, _⟩ := C50_payload_type (by omega) hl h
    simp only [Option.toList_some, List.map_cons, List.map_nil] at h1
    refine ⟨fun e => funext fun id => ?_, fun e => funext fun id => ?_, fun e => funext fun id => ?_⟩
    · have hn : n.nal_unit_payload.sps = none := by
        cases hp : n.nal_unit_payload.sps with
        | none => rfl
        | some x => exact absurd (by rw [h3 (by rw [hp]; rfl), e]) ht
      have := (h1 id).1
      rwa [spsOf, List.filterMap_cons, hn, List.filterMap_nil, latest_nil] at this
    · have hn : n.nal_unit_payload.pps = none := by
        cases hp : n.nal_unit_payload.pps with
        | none => rfl
        | some x => exact absurd (by rw [h4 (by rw [hp]; rfl), e]) ht
      have := (h1 id).2.1
      rwa [ppsOf, List.filterMap_cons, hn, List.filterMap_nil, latest_nil] at this
    · have hn : n.nal_unit_payload.subset_sps = none := by
        cases hp : n.nal_unit_payload.subset_sps with
        | none => rfl
        | some x => exact absurd (by rw [h5 (by rw [hp]; rfl), e]) ht
      have := (h1 id).2.2
      rwa [subsetSpsOf, List.filterMap_cons, hn, List.filterMap_nil, latest_nil] at this

theorem runs_same {nd : Bool} {opts : ParsingOptions} {ps : List (List UInt8)} {σ σ' : Store} {c c' : Nat}
    {rs : List (Option NalUnit)} (h : Runs (fun b => parseNalUnit nd opts b 0 b.length) ps σ c rs σ' c') {t : Nat} :
    (∀ p ∈ ps, p.length < 2 ^ 61) → (∀ p ∈ ps, packetType p ≠ some t) → SameSets t σ' σ := by
  induction h with
  | nil σ c => intro _ _; exact ⟨fun _ => rfl, fun _ => rfl, fun _ => rfl⟩
  | cons h1 _ ih =>
    intro hl ht
    exact (ih (fun p hp => hl p (List.mem_cons_of_mem _ hp)) (fun p hp => ht p (List.mem_cons_of_mem _ hp))).trans
      (nal_same (hl _ (List.mem_cons_self ..)) h1 (ht _ (List.mem_cons_self ..)))

/-- C72: a parameter set that is parsed again while it is in force is returned as before and changes nothing. -/
theorem set_again {nd : Bool} {opts : ParsingOptions} {p : List UInt8} (hl : p.length < 2 ^ 61) {t : Nat} (ht : t ∈ parameterSetTypes)
    (hp : packetType p = some t) {σ σ1 σ2 : Store} {c c1 d : Nat} {n : Option NalUnit}
    (h : parseNalUnit nd opts p 0 p.length σ c = .val (n, σ1, c1)) (hs : SameSets t σ2 σ1) :
    ∃ d', parseNalUnit nd opts p 0 p.length σ2 d = .val (n, σ2, d') ∧ d' + c = d + c1 := by
  obtain ⟨σ3, d', h1, e, h2⟩ := C72_state_free hl ht hp h σ2 d
  have h3 := C35_nal_unit (by omega) hl h
  suffices σ3 = σ2 by subst this; exact ⟨d', h1, e⟩
  cases n with
  | none =>
    have : ∀ id, σ3.sps id = σ2.sps id ∧ σ3.pps id = σ2.pps id ∧ σ3.subset_sps id = σ2.subset_sps id := fun id => h2 id
    obtain ⟨a1, a2, a3⟩ := σ3
    obtain ⟨b1, b2, b3⟩ := σ2
    simp only [Store.mk.injEq]
    exact ⟨funext fun id => (this id).1, funext fun id => (this id).2.1, funext fun id => (this id).2.2⟩
  | some n =>
    simp only [Option.toList_some, List.map_cons, List.map_nil] at h2 h3
    have hty := nal_type hl h
    rw [hp] at hty
    cases hty
    obtain ⟨q1, q2, _, _, q3, _⟩ := C50_payload_type (by omega) hl h
    have none_of : ∀ {β : Type} (x : Option β), (x.isSome → False) → x = none := by
      intro β x hx
      cases x with
      | none => rfl
      | some y => exact (hx rfl).elim
    have e1 : σ3.sps = σ2.sps := by
      funext id
      have a := (h2 id).1
      by_cases e : n.nal_unit_header.nal_unit_type = 7
      · rw [hs.sps e, (h3 id).1, latest_twice] at a
        rw [a, hs.sps e, (h3 id).1]
      · rwa [spsOf, List.filterMap_cons, none_of _ (fun hx => e (q1 hx)), List.filterMap_nil, latest_nil] at a
    have e2 : σ3.pps = σ2.pps := by
      funext id
      have a := (h2 id).2.1
      by_cases e : n.nal_unit_header.nal_unit_type = 8
      · rw [hs.pps e, (h3 id).2.1, latest_twice] at a
        rw [a, hs.pps e, (h3 id).2.1]
      · rwa [ppsOf, List.filterMap_cons, none_of _ (fun hx => e (q2 hx)), List.filterMap_nil, latest_nil] at a
    have e3 : σ3.subset_sps = σ2.subset_sps := by
      funext id
      have a := (h2 id).2.2
      by_cases e : n.nal_unit_header.nal_unit_type = 15
      · rw [hs.subset_sps e, (h3 id).2.2, latest_twice] at a
        rw [a, hs.subset_sps e, (h3 id).2.2]
      · rwa [subsetSpsOf, List.filterMap_cons, none_of _ (fun hx => e (q3 hx)), List.filterMap_nil, latest_nil] at a
    obtain ⟨a1, a2, a3⟩ := σ3
    obtain ⟨b1, b2, b3⟩ := σ2
    simp only [Store.mk.injEq]
    exact ⟨e1, e2, e3⟩

theorem annexB_append_length (a b : List (Bool × List UInt8)) : (annexB (a ++ b)).length = (annexB a).length + (annexB b).length := by
  induction a with
  | nil => simp [annexB]
  | cons x a ih =>
    obtain ⟨l, y⟩ := x
    rw [List.cons_append, annexB, annexB, List.length_append, List.length_append, List.length_append, List.length_append, ih]
    omega

/-- The parts of both streams. -/
theorem runs_repeated {nd : Bool} {opts : ParsingOptions} {a b d : List (List UInt8)} {u : List UInt8} {t : Nat}
    (ht : t ∈ parameterSetTypes) (hp : packetType u = some t) (hb : ∀ x ∈ b, packetType x ≠ some t) (hu : u.length < 2 ^ 61)
    (hl : ∀ x ∈ b, x.length < 2 ^ 61) (σ σ' : Store) (c : Nat) (ra : List (Option NalUnit)) (r : Option NalUnit)
    (rb rz : List (Option NalUnit)) (ha : ra.length = a.length) (hrb : rb.length = b.length) :
    (∃ c', Runs (fun b => parseNalUnit nd opts b 0 b.length) (a ++ u :: (b ++ d)) σ c (ra ++ r :: (rb ++ rz)) σ' c') ↔
      ∃ c', Runs (fun b => parseNalUnit nd opts b 0 b.length) (a ++ u :: (b ++ u :: d)) σ c (ra ++ r :: (rb ++ r :: rz)) σ' c' := by
  constructor
  · rintro ⟨c', h⟩
    obtain ⟨xa, xs, σ1, c1, e1, h1, h2⟩ := h.split
    obtain ⟨rfl, rfl⟩ := List.append_inj e1 (by rw [ha, h1.length])
    cases h2 with
    | @cons _ _ _ σ2 _ _ c2 _ _ _ h2 h3 =>
      obtain ⟨xb, xd, σ3, c3, e2, h3, h4⟩ := h3.split
      obtain ⟨rfl, rfl⟩ := List.append_inj e2 (by rw [hrb, h3.length])
      obtain ⟨c4, h5, _⟩ := set_again (d := c3) hu ht hp h2 (runs_same h3 hl hb)
      obtain ⟨n, _, h6⟩ := h4.shift (shift_nal nd opts)
      exact ⟨c4 + n, h1.append (.cons h2 (h3.append (.cons h5 (h6 c4))))⟩
  · rintro ⟨c', h⟩
    obtain ⟨xa, xs, σ1, c1, e1, h1, h2⟩ := h.split
    obtain ⟨rfl, rfl⟩ := List.append_inj e1 (by rw [ha, h1.length])
    cases h2 with
    | @cons _ _ _ σ2 _ _ c2 _ _ _ h2 h3 =>
      obtain ⟨xb, xd, σ3, c3, e2, h3, h4⟩ := h3.split
      obtain ⟨rfl, rfl⟩ := List.append_inj e2 (by rw [hrb, h3.length])
      obtain ⟨c4, h5, _⟩ := set_again (d := c3) hu ht hp h2 (runs_same h3 hl hb)
      cases h4 with
      | @cons _ _ _ σ4 _ _ c5 _ _ _ h4 h6 =>
        rw [h5] at h4
        cases h4
        obtain ⟨n, _, h7⟩ := h6.shift (shift_nal nd opts)
        exact ⟨c3 + n, h1.append (.cons h2 (h3.append (h7 c3)))⟩

theorem returned_eq (rs : List (Option NalUnit)) : returned rs = (rs.map (·.map contentOf)).filterMap id := by
  rw [List.filterMap_map]
  rfl

/-- The results of the NAL units of a stream. -/
theorem stream_results (nd : Bool) (opts : ParsingOptions) {us : List (Bool × List UInt8)} (hu : ∀ x ∈ us, Carriable x.2)
    (hl : (annexB us).length < 2 ^ 61) {σ : Store} {c : Nat} {bs : Bitstream} {σ' : Store} {c' : Nat}
    (h : parseBitstream nd opts (annexB us) σ c = .val (bs, σ', c')) :
    ∃ rs, rs.length = us.length ∧ Runs (fun b => parseNalUnit nd opts b 0 b.length) (us.map (·.2)) σ c rs σ' c' ∧
      contents bs = (rs.map (·.map contentOf)).filterMap id := by
  obtain ⟨rs, h1, h2⟩ := (stream_runs nd opts hu hl σ c _ σ' c').mp ⟨bs, h, rfl⟩
  refine ⟨rs, by rw [h1.length, List.length_map], h1, ?_⟩
  rw [← h2, List.filterMap_map]
  rfl

theorem split3 {α β : Type} {a b d : List α} {x : α} {rs : List β} (h : rs.length = (a ++ x :: (b ++ d)).length) :
    ∃ ra r rb rz, rs = ra ++ r :: (rb ++ rz) ∧ ra.length = a.length ∧ rb.length = b.length ∧ rz.length = d.length := by
  simp only [List.length_append, List.length_cons] at h
  obtain ⟨ra, rest, rfl, h3⟩ : ∃ ra rest, rs = ra ++ rest ∧ ra.length = a.length :=
    ⟨rs.take a.length, rs.drop a.length, (List.take_append_drop _ _).symm, by rw [List.length_take]; omega⟩
  rw [List.length_append] at h
  cases rest with
  | nil => simp only [List.length_nil] at h; omega
  | cons r rest =>
    rw [List.length_cons] at h
    obtain ⟨rb, rz, rfl, h4⟩ : ∃ rb rz, rest = rb ++ rz ∧ rb.length = b.length :=
      ⟨rest.take b.length, rest.drop b.length, (List.take_append_drop _ _).symm, by rw [List.length_take]; omega⟩
    rw [List.length_append] at h
    exact ⟨ra, r, rb, rz, rfl, h3, h4, by omega⟩

/-- C72: sending a parameter set `u` again, when no NAL unit of its type came since, adds the same result once more and changes nothing
else: not the results of the other NAL units, nor the parser state at the end.  Each NAL unit of `a`, `b` and `d` has one place in `ra`,
`rb` and `rz`. -/
theorem C72_again {nd : Bool} {opts : ParsingOptions} {a b d : List (Bool × List UInt8)} {l l' : Bool} {u : List UInt8} {t : Nat}
    (ht : t ∈ parameterSetTypes) (hp : packetType u = some t) (hb : ∀ x ∈ b, packetType x.2 ≠ some t)
    (hc : ∀ x ∈ a ++ (l, u) :: (b ++ (l', u) :: d), Carriable x.2) (hl : (annexB (a ++ (l, u) :: (b ++ (l', u) :: d))).length < 2 ^ 61)
    {σ σ' : Store} {c c' : Nat} {bs : Bitstream} (h : parseBitstream nd opts (annexB (a ++ (l, u) :: (b ++ d))) σ c = .val (bs, σ', c')) :
    ∃ (ra rb rz : List (Option (Nat × Option NaluChecksum × NalHeader × Payload))) (r : Option (Nat × Option NaluChecksum × NalHeader × Payload)),
      ra.length = a.length ∧ rb.length = b.length ∧ rz.length = d.length ∧ contents bs = (ra ++ r :: (rb ++ rz)).filterMap id ∧
      ∃ bs2 c2, parseBitstream nd opts (annexB (a ++ (l, u) :: (b ++ (l', u) :: d))) σ c = .val (bs2, σ', c2) ∧
        contents bs2 = (ra ++ r :: (rb ++ r :: rz)).filterMap id := by
  have hm : ∀ x ∈ a ++ (l, u) :: (b ++ d), x ∈ a ++ (l, u) :: (b ++ (l', u) :: d) := by
    intro x hx
    simp only [List.mem_append, List.mem_cons] at hx ⊢
    rcases hx with h | h | h | h
    · exact .inl h
    · exact .inr (.inl h)
    · exact .inr (.inr (.inl h))
    · exact .inr (.inr (.inr (.inr h)))
  have hl2 : (annexB (a ++ (l, u) :: (b ++ d))).length < 2 ^ 61 := by
    have e1 : a ++ (l, u) :: (b ++ d) = a ++ ([(l, u)] ++ (b ++ d)) := rfl
    have e2 : a ++ (l, u) :: (b ++ (l', u) :: d) = a ++ ([(l, u)] ++ (b ++ ([(l', u)] ++ d))) := rfl
    rw [e2] at hl
    rw [e1]
    simp only [annexB_append_length] at hl ⊢
    omega
  have hlen : ∀ x ∈ a ++ (l, u) :: (b ++ (l', u) :: d), x.2.length < 2 ^ 61 := fun x hx => Nat.lt_of_le_of_lt (annexB_mem_le _ x hx) hl
  obtain ⟨rs, h0, h1, h2⟩ := stream_results nd opts (fun x hx => hc x (hm x hx)) hl2 h
  obtain ⟨ra, r, rb, rz, rfl, h3, h4, h5⟩ := split3 h0
  refine ⟨ra.map (·.map contentOf), rb.map (·.map contentOf), rz.map (·.map contentOf), r.map contentOf, by rw [List.length_map, h3],
    by rw [List.length_map, h4], by rw [List.length_map, h5], by rw [h2, List.map_append, List.map_cons, List.map_append], ?_⟩
  rw [List.map_append, List.map_cons, List.map_append] at h1
  obtain ⟨c2, h6⟩ := (runs_repeated (nd := nd) (opts := opts) (a := a.map (·.2)) (b := b.map (·.2)) (d := d.map (·.2)) (u := u) ht hp
    (fun x hx => by obtain ⟨y, hy, rfl⟩ := List.mem_map.mp hx; exact hb y hy) (hlen (l, u) (by simp))
    (fun x hx => by obtain ⟨y, hy, rfl⟩ := List.mem_map.mp hx; exact hlen y (by simp [hy])) σ σ' c ra r rb rz
    (by rw [h3, List.length_map]) (by rw [h4, List.length_map])).mp ⟨c', h1⟩
  obtain ⟨bs2, h7, h8⟩ := (stream_runs nd opts hc hl σ c _ σ' c2).mpr
    ⟨_, by rw [List.map_append, List.map_cons, List.map_append, List.map_cons]; exact h6, rfl⟩
  refine ⟨bs2, c2, h7, ?_⟩
  rw [h8, returned_eq, List.map_append, List.map_cons, List.map_append, List.map_cons]

/-- C72: the other way round.  If the repetition is left out, only the second result is missing. -/
theorem C72_once {nd : Bool} {opts : ParsingOptions} {a b d : List (Bool × List UInt8)} {l l' : Bool} {u : List UInt8} {t : Nat}
    (ht : t ∈ parameterSetTypes) (hp : packetType u = some t) (hb : ∀ x ∈ b, packetType x.2 ≠ some t)
    (hc : ∀ x ∈ a ++ (l, u) :: (b ++ (l', u) :: d), Carriable x.2) (hl : (annexB (a ++ (l, u) :: (b ++ (l', u) :: d))).length < 2 ^ 61)
    {σ σ' : Store} {c c' : Nat} {bs : Bitstream}
    (h : parseBitstream nd opts (annexB (a ++ (l, u) :: (b ++ (l', u) :: d))) σ c = .val (bs, σ', c')) :
    ∃ (ra rb rz : List (Option (Nat × Option NaluChecksum × NalHeader × Payload))) (r : Option (Nat × Option NaluChecksum × NalHeader × Payload)),
      ra.length = a.length ∧ rb.length = b.length ∧ rz.length = d.length ∧ contents bs = (ra ++ r :: (rb ++ r :: rz)).filterMap id ∧
      ∃ bs2 c2, parseBitstream nd opts (annexB (a ++ (l, u) :: (b ++ d))) σ c = .val (bs2, σ', c2) ∧
        contents bs2 = (ra ++ r :: (rb ++ rz)).filterMap id := by
  have hm : ∀ x ∈ a ++ (l, u) :: (b ++ d), x ∈ a ++ (l, u) :: (b ++ (l', u) :: d) := by
    intro x hx
    simp only [List.mem_append, List.mem_cons] at hx ⊢
    rcases hx with h | h | h | h
    · exact .inl h
    · exact .inr (.inl h)
    · exact .inr (.inr (.inl h))
    · exact .inr (.inr (.inr (.inr h)))
  have hl2 : (annexB (a ++ (l, u) :: (b ++ d))).length < 2 ^ 61 := by
    have e1 : a ++ (l, u) :: (b ++ d) = a ++ ([(l, u)] ++ (b ++ d)) := rfl
    have e2 : a ++ (l, u) :: (b ++ (l', u) :: d) = a ++ ([(l, u)] ++ (b ++ ([(l', u)] ++ d))) := rfl
    rw [e2] at hl
    rw [e1]
    simp only [annexB_append_length] at hl ⊢
    omega
  have hlen : ∀ x ∈ a ++ (l, u) :: (b ++ (l', u) :: d), x.2.length < 2 ^ 61 := fun x hx => Nat.lt_of_le_of_lt (annexB_mem_le _ x hx) hl
  obtain ⟨rs, h0, h1, h2⟩ := stream_results nd opts hc hl h
  obtain ⟨ra, r, rb, rz, rfl, h3, h4, h5⟩ := split3 h0
  cases rz with
  | nil => cases h5
  | cons r2 rz =>
    rw [List.map_append, List.map_cons, List.map_append, List.map_cons] at h1
    -- the second result is that of the first
    have hr : r2 = r := by
      obtain ⟨xa, xs, σ1, c1, e1, k1, k2⟩ := h1.split
      obtain ⟨rfl, rfl⟩ := List.append_inj e1 (by rw [h3, k1.length, List.length_map])
      cases k2 with
      | cons k2 k3 =>
        obtain ⟨xb, xd, σ3, c3, e2, k3, k4⟩ := k3.split
        obtain ⟨rfl, rfl⟩ := List.append_inj e2 (by rw [h4, k3.length, List.length_map])
        cases k4 with
        | cons k4 k5 =>
          obtain ⟨_, _, k6, _⟩ := C72_state_free (hlen (l, u) (by simp)) ht hp k2 σ3 c3
          rw [k6] at k4
          cases k4
          rfl
    subst hr
    refine ⟨ra.map (·.map contentOf), rb.map (·.map contentOf), rz.map (·.map contentOf), r2.map contentOf, by rw [List.length_map, h3],
      by rw [List.length_map, h4], by rw [List.length_map]; simpa using h5,
      by rw [h2, List.map_append, List.map_cons, List.map_append, List.map_cons], ?_⟩
    obtain ⟨c2, h6⟩ := (runs_repeated (nd := nd) (opts := opts) (a := a.map (·.2)) (b := b.map (·.2)) (d := d.map (·.2)) (u := u) ht hp
      (fun x hx => by obtain ⟨y, hy, rfl⟩ := List.mem_map.mp hx; exact hb y hy) (hlen (l, u) (by simp))
      (fun x hx => by obtain ⟨y, hy, rfl⟩ := List.mem_map.mp hx; exact hlen y (by simp [hy])) σ σ' c ra r2 rb rz
      (by rw [h3, List.length_map]) (by rw [h4, List.length_map])).mpr ⟨c', h1⟩
    obtain ⟨bs2, h7, h8⟩ := (stream_runs nd opts (fun x hx => hc x (hm x hx)) hl2 σ c _ σ' c2).mpr
      ⟨_, by rw [List.map_append, List.map_cons, List.map_append]; exact h6, rfl⟩
    refine ⟨bs2, c2, h7, ?_⟩
    rw [h8, returned_eq, List.map_append, List.map_cons, List.map_append]

/-! ### Examples -/

/-- The SEI, the slice and the end of sequence of the example can be lost, in any combination. -/
example (m : List Bool) (h0 : m[0]? = some true) (h2 : m[2]? = some true) :
    ∀ (i : Nat) (u : Bool × List UInt8), m[i]? = some false → exStreamUnits[i]? = some u → ∀ t ∈ parameterSetTypes, packetType u.2 ≠ some t := by
  intro i u hi hu
  have : ∀ k < 5, k ≠ 0 → k ≠ 2 → (exStreamUnits[k]?.all fun u => parameterSetTypes.all fun t => packetType u.2 ≠ some t) = true := by
    decide +kernel
  have hlt : i < 5 := (List.getElem?_eq_some_iff.mp hu).1
  have := this i hlt (by rintro rfl; rw [h0] at hi; cases hi) (by rintro rfl; rw [h2] at hi; cases hi)
  rw [hu] at this
  simpa using this

/-- What is lost makes a difference if it is a parameter set: without the PPS the slice is returned without its header. -/
example (nd : Bool) :
    (∃ r, parseBitstream nd {} (annexB exStreamUnits) {} 0 = .val r ∧
      (r.1.nal_units[3]?.any fun n => n.nal_unit_payload.slice_layer_without_partitioning_rbsp.isSome) = true) ∧
    (∃ r, parseBitstream nd {} (annexB (kept [true, true, false, true, true] exStreamUnits)) {} 0 = .val r ∧
      (r.1.nal_units[2]?.any fun n => n.nal_unit_header.nal_unit_type = 1 ∧ n.nal_unit_payload.slice_layer_without_partitioning_rbsp.isNone) = true) := by
  cases nd <;> exact ⟨exists_dec (by decide +kernel), exists_dec (by decide +kernel)⟩

/-- Two of the packets of the example session carry parameter sets; the others can be lost. -/
example (nd : Bool) : ((feedSession nd (exStreamUnits.map (·.2)) {} 0).any fun r =>
    (r.1.map fun x => x.all fun y => (rtpPayloads y).all fun p => p.sps.isNone && p.pps.isNone && p.subset_sps.isNone) ==
      [false, true, false, true, true]) = true := by
  cases nd <;> decide +kernel

/-- The SPS of the example can be sent again just before the slice. -/
example : ∃ u a b, exStreamUnits = [] ++ (true, u) :: ([a, b] ++ exStreamUnits.drop 3) ∧ 7 ∈ parameterSetTypes ∧ packetType u = some 7 ∧
    ∀ x ∈ [a, b], packetType x.2 ≠ some 7 :=
  ⟨_, _, _, rfl, by decide, by decide +kernel, by decide +kernel⟩

/-- Another SPS with id 0. -/
def exOtherSpsNal : List UInt8 := exRbsp (exHdr 3 7) (encSps { exStapSps with head := { exStapSps.head with level_idc := 41 } }) 0

/-- It makes a difference if another SPS with the same id came in between. -/
example (nd : Bool) :
    (∃ r, parseBitstream nd {} (annexB [(true, exStapSpsNal), (true, exOtherSpsNal)]) {} 0 = .val r ∧
      (r.2.1.sps 0).map (·.level_idc) = some 41) ∧
    (∃ r, parseBitstream nd {} (annexB [(true, exStapSpsNal), (true, exOtherSpsNal), (true, exStapSpsNal)]) {} 0 = .val r ∧
      (r.2.1.sps 0).map (·.level_idc) = some 40) := by
  cases nd <;> exact ⟨exists_dec (by decide +kernel), exists_dec (by decide +kernel)⟩

end H264.Props
