import Verif.Props.Loss
import Verif.Props.CutOff

/-
C86: what damaged NAL units or packets do to the others.
-/

namespace H264.Props
open H264 H264.Spec

/-- Whatever the state, an element with this result leaves it as it is. -/
def KeepsState {α : Type} (f : List UInt8 → Store → Nat → Res (α × Store × Nat)) (p : List UInt8) (x : α) : Prop :=
  ∀ τ d τ' d', f p τ d = .val (x, τ', d') → τ' = τ

theorem Runs.damaged {α : Type} {f : List UInt8 → Store → Nat → Res (α × Store × Nat)} (hf : Shift f) {ps : List (List UInt8)} {σ σ' : Store}
    {c c' : Nat} {xs : List α} (h : Runs f ps σ c xs σ' c') : ∀ {qs : List (List UInt8)} {d : Nat} {ys : List α} {τ' : Store} {d' : Nat},
      Runs f qs σ d ys τ' d' → qs.length = ps.length →
      (∀ (i : Nat) (p q : List UInt8) (x y : α), ps[i]? = some p → qs[i]? = some q → xs[i]? = some x → ys[i]? = some y →
        p = q ∨ (KeepsState f p x ∧ KeepsState f q y)) →
      σ' = τ' ∧ ∀ i : Nat, ps[i]? = qs[i]? → xs[i]? = ys[i]? := by
  induction h with
  | nil σ c =>
    intro qs d ys τ' d' h2 hq _
    cases h2 with
    | nil => exact ⟨rfl, fun _ _ => rfl⟩
    | cons _ _ => simp at hq
  | @cons p ps σ σ1 σ' c c1 c' x xs h1 _ ih =>
    intro qs d ys τ' d' h2 hq hk
    cases h2 with
    | nil => simp at hq
    | @cons q qs _ τ1 _ _ d1 _ y ys g1 g2 =>
      obtain ⟨n, e1, h3⟩ := hf _ _ _ _ _ _ h1
      have hstate : σ1 = τ1 ∧ (p = q → x = y) := by
        have hpq : p = q → σ1 = τ1 ∧ x = y := by
          rintro rfl
          have h4 := h3 d
          rw [g1] at h4
          injection h4 with h4
          injection h4 with e2 h4
          injection h4 with e3 _
          exact ⟨e3.symm, e2.symm⟩
        refine ⟨?_, fun e => (hpq e).2⟩
        rcases hk 0 p q x y rfl rfl rfl rfl with e | ⟨k1, k2⟩
        · exact (hpq e).1
        · rw [k1 _ _ _ _ h1, k2 _ _ _ _ g1]
      obtain ⟨e2, hxy⟩ := hstate
      subst e2
      obtain ⟨h5, h6⟩ := ih g2 (by simpa using hq) (fun i p q x y a1 a2 a3 a4 => hk (i + 1) p q x y a1 a2 a3 a4)
      refine ⟨h5, fun i hi => ?_⟩
      cases i with
      | zero =>
        simp only [List.getElem?_cons_zero, Option.some.injEq] at hi ⊢
        exact hxy hi
      | succ i =>
        simp only [List.getElem?_cons_succ] at hi ⊢
        exact h6 i hi

/-! ### Streams -/

theorem inOrder_placed {parse : List UInt8 → Store → Nat → Res (Option NalUnit × Store × Nat)} {us : List (Nat × List UInt8)} {σ σ' : Store}
    {c c' : Nat} {ns : List NalUnit} (h : InOrder parse us σ c ns σ' c') : ∃ rs, Runs parse (us.map (·.2)) σ c rs σ' c' ∧
      ∀ n, n ∈ ns ↔ ∃ (i : Nat) (u : Nat × List UInt8) (r : NalUnit), us[i]? = some u ∧ rs[i]? = some (some r) ∧
        n = { r with offset := u.1, length := u.2.length } := by
  induction h with
  | nil σ c => exact ⟨[], .nil σ c, fun n => ⟨fun hn => (by cases hn), fun ⟨i, u, r, hi, _⟩ => (by simp at hi)⟩⟩
  | @skip off bytes rest σ σ' c c1 c' ns h1 _ ih =>
    obtain ⟨rs, h2, h3⟩ := ih
    refine ⟨none :: rs, .cons h1 h2, fun n => ?_⟩
    rw [h3]
    constructor
    · rintro ⟨i, u, r, a1, a2, a3⟩; exact ⟨i + 1, u, r, a1, a2, a3⟩
    · rintro ⟨i, u, r, a1, a2, a3⟩
      cases i with
      | zero => simp at a2
      | succ i => exact ⟨i, u, r, a1, a2, a3⟩
  | @unit off bytes rest σ σ1 σ' c c1 c' m ns h1 _ ih =>
    obtain ⟨rs, h2, h3⟩ := ih
    refine ⟨some m :: rs, .cons h1 h2, fun n => ?_⟩
    rw [List.mem_cons, h3]
    constructor
    · rintro (rfl | ⟨i, u, r, a1, a2, a3⟩)
      · exact ⟨0, _, m, rfl, rfl, rfl⟩
      · exact ⟨i + 1, u, r, a1, a2, a3⟩
    · rintro ⟨i, u, r, a1, a2, a3⟩
      cases i with
      | zero =>
        simp only [List.getElem?_cons_zero, Option.some.injEq] at a1 a2
        subst a1 a2
        exact .inl a3
      | succ i => exact .inr ⟨i, u, r, a1, a2, a3⟩

theorem index_unique : ∀ {l : List NaluIndex}, (l.map NaluIndex.payload_start_offset).Nodup → ∀ {e f : NaluIndex}, e ∈ l → f ∈ l →
    e.payload_start_offset = f.payload_start_offset → e = f
  | [], _, _, _, he, _, _ => by cases he
  | x :: l, h, e, f, he, hf, hef => by
    rw [List.map_cons, List.nodup_cons] at h
    rcases List.mem_cons.mp he with he1 | he1 <;> rcases List.mem_cons.mp hf with hf1 | hf1
    · rw [he1, hf1]
    · exact absurd (List.mem_map_of_mem (f := NaluIndex.payload_start_offset) hf1) (by rw [← hef, he1]; exact h.1)
    · exact absurd (List.mem_map_of_mem (f := NaluIndex.payload_start_offset) he1) (by rw [hef, hf1]; exact h.1)
    · exact index_unique h.2 he1 hf1 hef

theorem damaged_units {nd : Bool} {opts : ParsingOptions} {data data' : List UInt8} (hl : data.length < 2 ^ 61) (hl' : data'.length < 2 ^ 61)
    {idx : List NaluIndex} (hi : findNaluIndices data = .val idx) (hi' : findNaluIndices data' = .val idx)
    (hd : ∀ e ∈ idx, sliceOf data e = sliceOf data' e ∨
      ∀ t ∈ parameterSetTypes, packetType (sliceOf data e) ≠ some t ∧ packetType (sliceOf data' e) ≠ some t) {σ : Store} {c d : Nat}
    {bs bt : Bitstream} {σ' τ' : Store} {c' d' : Nat} (hs : parseBitstream nd opts data σ c = .val (bs, σ', c'))
    (ht : parseBitstream nd opts data' σ d = .val (bt, τ', d')) :
    σ' = τ' ∧ ∀ e ∈ idx, sliceOf data e = sliceOf data' e → ∀ n, n.offset = e.payload_start_offset → n ∈ bs.nal_units → n ∈ bt.nal_units := by
  obtain ⟨idx2, g1, hnd, _⟩ := C13_reported_iff data (by omega)
  rw [hi] at g1
  obtain rfl := Res.val.inj g1
  have e1 := C13_find_exact data (by omega)
  have e2 := C13_find_exact data' (by omega)
  rw [hi] at e1
  rw [hi'] at e2
  have hs' := ((C18_in_order nd opts _ hl σ c _ _ _).mp hs).2
  have ht' := ((C18_in_order nd opts _ hl' σ d _ _ _).mp ht).2
  rw [← Res.val.inj e1] at hs'
  rw [← Res.val.inj e2] at ht'
  obtain ⟨rs, h1, h2⟩ := inOrder_placed hs'
  obtain ⟨ts, h3, h4⟩ := inOrder_placed ht'
  rw [List.map_map] at h1 h3
  have hsl : ∀ (l : List UInt8), l.length < 2 ^ 61 → ∀ e, (sliceOf l e).length < 2 ^ 61 := by
    intro l hl e
    unfold sliceOf
    rw [List.length_take, List.length_drop]
    omega
  obtain ⟨h5, h6⟩ := h1.damaged (shift_nal nd opts) h3 (by simp) (fun i p q x y a1 a2 _ _ => by
    rw [List.getElem?_map] at a1 a2
    obtain ⟨e, b1, rfl⟩ := Option.map_eq_some_iff.mp a1
    obtain ⟨e', b2, rfl⟩ := Option.map_eq_some_iff.mp a2
    rw [b1] at b2
    obtain rfl := Option.some.inj b2
    rcases hd e (List.mem_of_getElem? b1) with h | h
    · exact .inl h
    · exact .inr ⟨fun _ _ _ _ k => nal_no_set (hsl data hl e) k fun t ht => (h t ht).1,
        fun _ _ _ _ k => nal_no_set (hsl data' hl' e) k fun t ht => (h t ht).2⟩)
  refine ⟨h5, fun e he hse n hn hmem => ?_⟩
  obtain ⟨i, u, r, a1, a2, rfl⟩ := (h2 _).mp hmem
  rw [List.getElem?_map] at a1
  obtain ⟨e', b1, rfl⟩ := Option.map_eq_some_iff.mp a1
  obtain rfl := index_unique hnd (List.mem_of_getElem? b1) he hn
  refine (h4 _).mpr ⟨i, _, r, by rw [List.getElem?_map, b1]; rfl, ?_, by dsimp only; rw [hse]⟩
  rw [← h6 i (by rw [List.getElem?_map, List.getElem?_map, b1]; simp [hse]), a2]

/-- C86: `data'` is `data` with damaged bytes.  If the damage neither makes nor removes start codes, and the damaged NAL units are no
parameter sets, neither before nor after the damage, then all other NAL units give the same results, and the parser state in the end is
the same. -/
theorem C86_stream {nd : Bool} {opts : ParsingOptions} {data data' : List UInt8} (hl : data.length < 2 ^ 61) (hl' : data'.length < 2 ^ 61)
    {idx : List NaluIndex} (hi : findNaluIndices data = .val idx) (hi' : findNaluIndices data' = .val idx)
    (hd : ∀ e ∈ idx, sliceOf data e = sliceOf data' e ∨
      ∀ t ∈ parameterSetTypes, packetType (sliceOf data e) ≠ some t ∧ packetType (sliceOf data' e) ≠ some t) {σ : Store} {c d : Nat}
    {bs bt : Bitstream} {σ' τ' : Store} {c' d' : Nat} (hs : parseBitstream nd opts data σ c = .val (bs, σ', c'))
    (ht : parseBitstream nd opts data' σ d = .val (bt, τ', d')) :
    σ' = τ' ∧ ∀ e ∈ idx, sliceOf data e = sliceOf data' e → ∀ n, n.offset = e.payload_start_offset →
      (n ∈ bs.nal_units ↔ n ∈ bt.nal_units) := by
  obtain ⟨h1, h2⟩ := damaged_units hl hl' hi hi' hd hs ht
  obtain ⟨_, h3⟩ := damaged_units hl' hl hi' hi (fun e he => (hd e he).imp Eq.symm fun h t ht => ⟨(h t ht).2, (h t ht).1⟩) ht hs
  exact ⟨h1, fun e he hse n hn => ⟨h2 e he hse n hn, h3 e he hse.symm n hn⟩⟩

/-! ### Streams with sizes -/

theorem framedUnits_at {k : Nat} : ∀ {us : List (List UInt8)} {pos i : Nat} {u : List UInt8}, us[i]? = some u →
    (framedUnits k pos us)[i]? = some (pos + (framed k (us.take i)).length + k, u)
  | [], _, _, _, h => by simp at h
  | v :: us, pos, 0, u, h => by
    simp only [List.getElem?_cons_zero, Option.some.injEq] at h
    subst h
    simp only [framedUnits, List.take_zero, framed, List.getElem?_cons_zero, List.length_nil, Nat.add_zero]
  | v :: us, pos, i + 1, u, h => by
    simp only [List.getElem?_cons_succ] at h
    simp only [framedUnits, List.take_succ_cons, framed, List.getElem?_cons_succ, List.length_append, be_length]
    rw [framedUnits_at h]
    simp only [Option.some.injEq, Prod.mk.injEq, and_true]
    omega

theorem framedUnits_some {k : Nat} : ∀ {us : List (List UInt8)} {pos i : Nat} {x : Nat × List UInt8}, (framedUnits k pos us)[i]? = some x →
    us[i]? = some x.2
  | [], _, _, _, h => by simp [framedUnits] at h
  | v :: us, pos, 0, x, h => by
    simp only [framedUnits, List.getElem?_cons_zero, Option.some.injEq] at h ⊢
    rw [← h]
  | v :: us, pos, i + 1, x, h => by
    simp only [framedUnits, List.getElem?_cons_succ] at h ⊢
    exact framedUnits_some h

theorem framedUnits_bytes (k : Nat) : ∀ (us : List (List UInt8)) (pos : Nat), (framedUnits k pos us).map (·.2) = us
  | [], _ => rfl
  | u :: us, pos => by rw [framedUnits, List.map_cons, framedUnits_bytes k us]

theorem framed_take_mono {k : Nat} (hk : 0 < k) : ∀ {us : List (List UInt8)} {i j : Nat}, i < us.length → j < us.length →
    (framed k (us.take i)).length = (framed k (us.take j)).length → i = j
  | [], _, _, hi, _, _ => by simp at hi
  | u :: us, 0, 0, _, _, _ => rfl
  | u :: us, 0, j + 1, _, _, h => by
    simp only [List.take_zero, List.take_succ_cons, framed, List.length_append, be_length, List.length_nil] at h
    omega
  | u :: us, i + 1, 0, _, _, h => by
    simp only [List.take_zero, List.take_succ_cons, framed, List.length_append, be_length, List.length_nil] at h
    omega
  | u :: us, i + 1, j + 1, hi, hj, h => by
    simp only [List.take_succ_cons, framed, List.length_append, be_length] at h
    have := framed_take_mono hk (us := us) (i := i) (j := j) (by simpa using hi) (by simpa using hj) (by omega)
    omega

theorem framed_length_eq {k : Nat} : ∀ (us vs : List (List UInt8)), us.map (·.length) = vs.map (·.length) →
    (framed k us).length = (framed k vs).length
  | [], [], _ => rfl
  | [], _ :: _, h => by simp at h
  | _ :: _, [], h => by simp at h
  | u :: us, v :: vs, h => by
    rw [List.map_cons, List.map_cons, List.cons.injEq] at h
    rw [framed, framed, List.length_append, List.length_append, List.length_append, List.length_append, be_length, be_length, h.1,
      framed_length_eq us vs h.2]

theorem damaged_framed {nd : Bool} {opts : ParsingOptions} {k : Nat} (hk : 0 < k) {us vs : List (List UInt8)}
    (hu : ∀ u ∈ us, u ≠ [] ∧ u.length < 256 ^ k) (hv : ∀ v ∈ vs, v ≠ [] ∧ v.length < 256 ^ k) (huv : us.map (·.length) = vs.map (·.length))
    (hl : (framed k us).length < 2 ^ 61) (hl' : (framed k vs).length < 2 ^ 61)
    (hd : ∀ (i : Nat) (u v : List UInt8), us[i]? = some u → vs[i]? = some v → u ≠ v →
      ∀ t ∈ parameterSetTypes, packetType u ≠ some t ∧ packetType v ≠ some t) {σ : Store} {c d : Nat}
    {bs bt : Bitstream} {σ' τ' : Store} {c' d' : Nat} (hs : parseBitstreamNALULength nd opts (framed k us) k σ c = .val (bs, σ', c'))
    (ht : parseBitstreamNALULength nd opts (framed k vs) k σ d = .val (bt, τ', d')) :
    σ' = τ' ∧ ∀ i < us.length, us[i]? = vs[i]? → ∀ n : NalUnit, n.offset = (framed k (us.take i)).length + k →
      n ∈ bs.nal_units → n ∈ bt.nal_units := by
  obtain ⟨_, ns, hs', e1⟩ := (C17_framed_partial nd opts us hk hu hl σ c _ _ _).mp hs
  obtain ⟨_, ms, ht', e2⟩ := (C17_framed_partial nd opts vs hk hv hl' σ d _ _ _).mp ht
  obtain ⟨rs, h1, h2⟩ := inOrder_placed hs'
  obtain ⟨ts, h3, h4⟩ := inOrder_placed ht'
  rw [framedUnits_bytes] at h1 h3
  have hsize : ∀ (us : List (List UInt8)), (∀ u ∈ us, u.length ≤ (framed k us).length) := by
    intro us
    induction us with
    | nil => simp
    | cons v us ih =>
      intro u hu
      rw [framed, List.length_append, List.length_append]
      rcases List.mem_cons.mp hu with rfl | hu
      · omega
      · have := ih u hu; omega
  have hlen : us.length = vs.length := by simpa using congrArg List.length huv
  obtain ⟨h5, h6⟩ := h1.damaged (shift_nal nd opts) h3 hlen.symm (fun i p q x y a1 a2 _ _ => by
    by_cases e : p = q
    · exact .inl e
    · have h := hd i p q a1 a2 e
      have h7 := hsize us p (List.mem_of_getElem? a1)
      have h8 := hsize vs q (List.mem_of_getElem? a2)
      exact .inr ⟨fun _ _ _ _ k => nal_no_set (by omega) k fun t ht => (h t ht).1,
        fun _ _ _ _ k => nal_no_set (by omega) k fun t ht => (h t ht).2⟩)
  refine ⟨h5, fun i hi hse n hn hmem => ?_⟩
  rw [e1] at hmem
  rw [e2]
  obtain ⟨n0, hmem', rfl⟩ := List.mem_map.mp hmem
  obtain ⟨j, x, r, a1, a2, rfl⟩ := (h2 _).mp hmem'
  have b1 := framedUnits_some a1
  have b2 := framedUnits_at (k := k) (pos := 0) b1
  rw [a1] at b2
  have hj : j < us.length := (List.getElem?_eq_some_iff.mp b1).1
  have b3 := congrArg Prod.fst (Option.some.inj b2)
  dsimp only at b3 hn
  obtain rfl := framed_take_mono hk hj hi (by omega)
  refine List.mem_map.mpr ⟨_, (h4 _).mpr ⟨j, x, r, ?_, ?_, rfl⟩, rfl⟩
  · rw [hse] at b1
    rw [framedUnits_at b1, Option.some.injEq]
    refine Prod.ext ?_ rfl
    dsimp only
    rw [b3]
    congr 2
    exact (framed_length_eq _ _ (by rw [List.map_take, List.map_take, huv])).symm
  · rw [← h6 j hse, a2]

/-- C86 for streams with sizes: the sizes and the NAL units that are parameter sets, before or after the damage, are not damaged. -/
theorem C86_length {nd : Bool} {opts : ParsingOptions} {k : Nat} (hk : 0 < k) {us vs : List (List UInt8)}
    (hu : ∀ u ∈ us, u ≠ [] ∧ u.length < 256 ^ k) (hv : ∀ v ∈ vs, v ≠ [] ∧ v.length < 256 ^ k) (huv : us.map (·.length) = vs.map (·.length))
    (hl : (framed k us).length < 2 ^ 61) (hl' : (framed k vs).length < 2 ^ 61)
    (hd : ∀ (i : Nat) (u v : List UInt8), us[i]? = some u → vs[i]? = some v → u ≠ v →
      ∀ t ∈ parameterSetTypes, packetType u ≠ some t ∧ packetType v ≠ some t) {σ : Store} {c d : Nat}
    {bs bt : Bitstream} {σ' τ' : Store} {c' d' : Nat} (hs : parseBitstreamNALULength nd opts (framed k us) k σ c = .val (bs, σ', c'))
    (ht : parseBitstreamNALULength nd opts (framed k vs) k σ d = .val (bt, τ', d')) :
    σ' = τ' ∧ ∀ i < us.length, us[i]? = vs[i]? → ∀ n : NalUnit, n.offset = (framed k (us.take i)).length + k →
      (n ∈ bs.nal_units ↔ n ∈ bt.nal_units) := by
  obtain ⟨h1, h2⟩ := damaged_framed hk hu hv huv hl hl' hd hs ht
  obtain ⟨_, h3⟩ := damaged_framed hk hv hu huv.symm hl' hl (fun i u v a1 a2 e t ht => (hd i v u a2 a1 (Ne.symm e) t ht).symm) ht hs
  refine ⟨h1, fun i hi hse n hn => ⟨h2 i hi hse n hn, h3 i ?_ hse.symm n ?_⟩⟩
  · have : us.length = vs.length := by simpa using congrArg List.length huv
    omega
  · rw [hn, framed_length_eq (us.take i) (vs.take i) (by rw [List.map_take, List.map_take, huv])]

/-! ### Packets -/

theorem rtp_keeps {nd : Bool} {p : List UInt8} (hp : p.length < 2 ^ 61) {x : Option Rtp}
    (h : (∀ y, x = some y → NoParameterSet y) ∧ (x = none → packetType p ≠ some 24)) : KeepsState (fun p => parseRtpData nd p 0 p.length) p x := by
  intro τ d τ' d' h5
  obtain ⟨h6, h7⟩ := h
  cases x with
  | none => exact C69_refused_partial hp h5 (h7 rfl)
  | some y =>
    have h8 := C69_returned_partial hp h5
    have h9 := h6 y rfl
    have key : ∀ {β : Type} (g : Payload → Option β), (∀ q ∈ rtpPayloads y, g q = none) → (rtpPayloads y).filterMap g = [] := by
      intro β g hg
      exact List.filterMap_eq_nil_iff.mpr hg
    unfold LatestOf spsOf ppsOf subsetSpsOf at h8
    rw [key _ (fun q hq => (h9 q hq).1), key _ (fun q hq => (h9 q hq).2.1), key _ (fun q hq => (h9 q hq).2.2)] at h8
    simp only [latest_nil] at h8
    obtain ⟨a1, a2, a3⟩ := τ
    obtain ⟨b1, b2, b3⟩ := τ'
    simp only [Store.mk.injEq]
    exact ⟨funext fun id => (h8 id).1, funext fun id => (h8 id).2.1, funext fun id => (h8 id).2.2⟩

/-- C86: if packets are damaged that have no parameter set in them, neither before nor after the damage (and are not STAP-A packets that
are refused), then all other packets give the same results, and the parser state in the end is the same. -/
theorem C86_packets {nd : Bool} {ps qs : List (List UInt8)} (hlp : ∀ p ∈ ps, p.length < 2 ^ 61) (hlq : ∀ q ∈ qs, q.length < 2 ^ 61)
    (hpq : qs.length = ps.length) {σ σ' τ' : Store} {c c' d d' : Nat} {xs ys : List (Option Rtp)} (h : Session nd ps σ c xs σ' c')
    (h' : Session nd qs σ d ys τ' d')
    (hd : ∀ (i : Nat) (p q : List UInt8) (x y : Option Rtp), ps[i]? = some p → qs[i]? = some q → xs[i]? = some x → ys[i]? = some y → p ≠ q →
      ((∀ z, x = some z → NoParameterSet z) ∧ (x = none → packetType p ≠ some 24)) ∧
      ((∀ z, y = some z → NoParameterSet z) ∧ (y = none → packetType q ≠ some 24))) :
    σ' = τ' ∧ ∀ i : Nat, ps[i]? = qs[i]? → xs[i]? = ys[i]? :=
  (session_runs.mp h).damaged (shift_rtp nd) (session_runs.mp h') hpq fun i p q x y a1 a2 a3 a4 => by
    by_cases e : p = q
    · exact .inl e
    · obtain ⟨h1, h2⟩ := hd i p q x y a1 a2 a3 a4 e
      exact .inr ⟨rtp_keeps (hlp p (List.mem_of_getElem? a1)) h1, rtp_keeps (hlq q (List.mem_of_getElem? a2)) h2⟩

/-! ### What damage can do -/

/-- An SEI message whose bytes are those of an SPS with frame numbers of 4 bits, if its type is damaged (6 to 7, one bit). -/
def damagedSei (type : Nat) : Bool × List UInt8 :=
  (true, escapeNal (exRbsp (exHdr 0 type) (encSps { cutSps with tail := { cutSps.tail with log2_max_frame_num_minus4 := 0 } }) 0))
def damagedStream (sei : Nat) (slice : UInt8) : List UInt8 :=
  annexB (cutSets ++ [(true, [0x01, 0xb8, slice, 0x10, 0x11, 0x80, 0x80, 0x80]), damagedSei sei, (true, [0x01, 0xbf, 0xff, 0x10, 0x11, 0x80, 0x80, 0x80])])

/-- The frame numbers of the slices of a stream, and the number of NAL units. -/
def frameNums (bs : Bitstream) : Nat × List (Option Nat) :=
  (bs.nal_units.length, (bs.nal_units.filterMap (·.nal_unit_payload.slice_layer_without_partitioning_rbsp)).map fun s => s.slice_header.map (·.frame_num))

/-- C86: the condition that damaged NAL units are no parameter sets after the damage is needed: one wrong bit in an SEI message changes the
frame number that is found in the slice after it. -/
theorem C86_sei (nd : Bool) :
    (∃ r, parseBitstream nd {} (damagedStream 6 0x10) {} 0 = .val r ∧ frameNums r.1 = (5, [some 8, some 1023])) ∧
    (∃ r, parseBitstream nd {} (damagedStream 7 0x10) {} 0 = .val r ∧ frameNums r.1 = (5, [some 8, some 15])) ∧
    ((List.range (damagedStream 6 0x10).length).filter fun i => (damagedStream 6 0x10)[i]? ≠ (damagedStream 7 0x10)[i]?) = [44] := by
  cases nd <;> exact ⟨exists_dec (by decide +kernel), exists_dec (by decide +kernel), by decide +kernel⟩

/-! ### Examples -/

/-- Damage in the first slice: the frame number of the first slice is another one, that of the second is the same. -/
example (nd : Bool) :
    (∃ r, parseBitstream nd {} (damagedStream 6 0x10) {} 0 = .val r ∧ frameNums r.1 = (5, [some 8, some 1023])) ∧
    (∃ r, parseBitstream nd {} (damagedStream 6 0x30) {} 0 = .val r ∧ frameNums r.1 = (5, [some 24, some 1023])) ∧
    (∃ idx, findNaluIndices (damagedStream 6 0x10) = .val idx ∧ findNaluIndices (damagedStream 6 0x30) = .val idx ∧ idx.length = 5 ∧
      ∀ e ∈ idx, sliceOf (damagedStream 6 0x10) e = sliceOf (damagedStream 6 0x30) e ∨
        ∀ t ∈ parameterSetTypes, packetType (sliceOf (damagedStream 6 0x10) e) ≠ some t ∧ packetType (sliceOf (damagedStream 6 0x30) e) ≠ some t) := by
  cases nd <;> exact ⟨exists_dec (by decide +kernel), exists_dec (by decide +kernel), exists_dec (by decide +kernel)⟩

/-- A stream with sizes: the access unit delimiter is damaged, the PPS is not. -/
example (nd : Bool) :
    (∃ r, parseBitstreamNALULength nd {} (framed 2 [[0x09, 0xf0], [0x68, 0xee, 0x38, 0xb0]]) 2 {} 0 = .val r ∧
      r.1.nal_units.map (fun n => (n.offset, n.nal_unit_header.nal_unit_type)) = [(2, 9), (6, 8)]) ∧
    (∃ r, parseBitstreamNALULength nd {} (framed 2 [[0x0b, 0x10], [0x68, 0xee, 0x38, 0xb0]]) 2 {} 0 = .val r ∧
      r.1.nal_units.map (fun n => (n.offset, n.nal_unit_header.nal_unit_type)) = [(2, 11), (6, 8)]) ∧
    (∀ t ∈ parameterSetTypes, packetType [0x09, 0xf0] ≠ some t ∧ packetType [0x0b, 0x10] ≠ some t) := by
  cases nd <;> exact ⟨exists_dec (by decide +kernel), exists_dec (by decide +kernel), by decide⟩

/-- Packets: the first is damaged such that it is refused. -/
example (nd : Bool) :
    (∃ r, parseRtpData nd [0x09, 0xf0] 0 2 {} 0 = .val r ∧ (r.1.map fun x => (rtpPayloads x).map fun p => (p.sps.isNone, p.pps.isNone, p.subset_sps.isNone)) =
      some [(true, true, true)]) ∧
    (∃ r, parseRtpData nd [0x1c] 0 1 {} 0 = .val r ∧ r.1.isNone) ∧ packetType [0x1c] ≠ some 24 ∧
    (∃ r, parseRtpData nd [0x68, 0xee, 0x38, 0xb0] 0 4 {} 0 = .val r ∧ (r.1.map fun x => (rtpPayloads x).map fun p => p.pps.isSome) = some [true]) := by
  cases nd <;> exact ⟨exists_dec (by decide +kernel), exists_dec (by decide +kernel), by decide, exists_dec (by decide +kernel)⟩

end H264.Props
