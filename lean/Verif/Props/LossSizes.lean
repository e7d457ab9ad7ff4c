import Verif.Props.Reorder

/-! # Loss, repetition and order of NAL units of streams with sizes (C71, C72, C87)

The theorems of `Verif/Props/Loss.lean` and `Verif/Props/Reorder.lean` about Annex B streams, for streams in which every NAL unit comes after
its size (`ParseBitstreamNALULength`). -/

namespace H264.Props

open H264 H264.Spec

theorem framed_sum (k : Nat) : ∀ us : List (List UInt8), (framed k us).length = (us.map fun u => k + u.length).sum
  | [] => rfl
  | u :: us => by
    rw [framed, List.length_append, List.length_append, be_length, framed_sum k us, List.map_cons, List.sum_cons]

theorem framed_append_length (k : Nat) (us vs : List (List UInt8)) :
    (framed k (us ++ vs)).length = (framed k us).length + (framed k vs).length := by
  rw [framed_sum, framed_sum, framed_sum, List.map_append, List.sum_append]

theorem framed_mem_le (k : Nat) : ∀ (us : List (List UInt8)), ∀ u ∈ us, u.length ≤ (framed k us).length
  | [], _, h => by cases h
  | v :: us, u, h => by
    rw [framed, List.length_append, List.length_append]
    rcases List.mem_cons.mp h with rfl | h
    · omega
    · have := framed_mem_le k us u h; omega

theorem framed_kept_le (k : Nat) : ∀ (m : List Bool) (us : List (List UInt8)), (framed k (kept m us)).length ≤ (framed k us).length
  | [], _ => Nat.zero_le _
  | true :: _, [] => Nat.zero_le _
  | false :: _, [] => Nat.zero_le _
  | true :: m, y :: ys => by
    show (framed k (y :: kept m ys)).length ≤ _
    have := framed_kept_le k m ys
    rw [framed, framed, List.length_append, List.length_append, List.length_append, List.length_append]
    omega
  | false :: m, y :: ys => by
    show (framed k (kept m ys)).length ≤ _
    have := framed_kept_le k m ys
    rw [framed, List.length_append, List.length_append]
    omega

/-- A stream with sizes and the parses of its NAL units. -/
theorem framed_runs (nd : Bool) (opts : ParsingOptions) {k : Nat} (hk : 0 < k) {us : List (List UInt8)}
    (hu : ∀ u ∈ us, u ≠ [] ∧ u.length < 256 ^ k) (hl : (framed k us).length < 2 ^ 61) (σ : Store) (c : Nat)
    (x : List (Nat × Option NaluChecksum × NalHeader × Payload)) (σ' : Store) (c' : Nat) :
    (∃ bs, parseBitstreamNALULength nd opts (framed k us) k σ c = .val (bs, σ', c') ∧ contents bs = x) ↔
      ∃ rs, Runs (fun b => parseNalUnit nd opts b 0 b.length) us σ c rs σ' c' ∧ (rs.map (·.map contentOf)).filterMap id = x := by
  constructor
  · rintro ⟨bs, h, rfl⟩
    obtain ⟨_, ns, h1, h4⟩ := (C17_framed_partial nd opts us hk hu hl σ c bs σ' c').mp h
    obtain ⟨rs, h2, h3⟩ := inOrder_runs h1
    rw [framedUnits_bytes] at h2
    refine ⟨rs, h2, ?_⟩
    rw [← returned_eq, h3]
    unfold contents
    rw [h4, List.map_map]
    rfl
  · rintro ⟨rs, h, rfl⟩
    obtain ⟨ns, h1, h2⟩ := runs_inOrder h (fun p hp => Nat.lt_of_le_of_lt (framed_mem_le k us p hp) hl) (framedUnits_bytes k us 0)
    refine ⟨⟨{}, _⟩, (C17_framed_partial nd opts us hk hu hl σ c _ σ' c').mpr ⟨rfl, ns, h1, rfl⟩, ?_⟩
    rw [← returned_eq, h2]
    unfold contents
    rw [List.map_map]
    rfl

/-- C71: if any NAL units of a stream with sizes are lost that are no parameter sets, then the others give the same results, and the parser
state at the end is the same. -/
theorem C71_length {nd : Bool} {opts : ParsingOptions} {k : Nat} (hk : 0 < k) {us : List (List UInt8)}
    (hu : ∀ u ∈ us, u ≠ [] ∧ u.length < 256 ^ k) (hl : (framed k us).length < 2 ^ 61) {σ σ' : Store} {c c' : Nat} {bs : Bitstream}
    (h : parseBitstreamNALULength nd opts (framed k us) k σ c = .val (bs, σ', c')) :
    ∃ rs : List (Option (Nat × Option NaluChecksum × NalHeader × Payload)), rs.length = us.length ∧ contents bs = rs.filterMap id ∧
      ∀ m : List Bool, m.length = us.length →
        (∀ (i : Nat) (u : List UInt8), m[i]? = some false → us[i]? = some u → ∀ t ∈ parameterSetTypes, packetType u ≠ some t) →
        ∃ bs2 c2, parseBitstreamNALULength nd opts (framed k (kept m us)) k σ c = .val (bs2, σ', c2) ∧
          contents bs2 = (kept m rs).filterMap id ∧ c ≤ c2 ∧ c2 ≤ c' := by
  obtain ⟨rs, h1, h2⟩ := (framed_runs nd opts hk hu hl σ c _ σ' c').mp ⟨bs, h, rfl⟩
  refine ⟨rs.map (·.map contentOf), by rw [List.length_map, h1.length], h2.symm, fun m hm hs => ?_⟩
  obtain ⟨n, e, h3⟩ := h1.kept (shift_nal nd opts) (m := m) hm (fun i p x h4 h5 _ τ d τ' d' h6 =>
    nal_no_set (Nat.lt_of_le_of_lt (framed_mem_le k us p (List.mem_of_getElem? h5)) hl) h6 (hs i p h4 h5))
  obtain ⟨bs2, h4, h5⟩ := (framed_runs nd opts hk (fun x hx => hu x (mem_kept hx)) (Nat.lt_of_le_of_lt (framed_kept_le k m us) hl) σ c _ σ' _).mpr
    ⟨_, h3 c, rfl⟩
  refine ⟨bs2, c + n, h4, ?_, by omega, by omega⟩
  rw [h5, ← kept_map]

/-- C72: a parameter set that comes again in a stream with sizes, without another of its type in between, changes nothing but its own second
result, which is the first. -/
theorem C72_length {nd : Bool} {opts : ParsingOptions} {k : Nat} (hk : 0 < k) {a b d : List (List UInt8)} {u : List UInt8} {t : Nat}
    (ht : t ∈ parameterSetTypes) (hp : packetType u = some t) (hb : ∀ x ∈ b, packetType x ≠ some t)
    (hu : ∀ x ∈ a ++ u :: (b ++ u :: d), x ≠ [] ∧ x.length < 256 ^ k) (hl : (framed k (a ++ u :: (b ++ u :: d))).length < 2 ^ 61)
    {σ σ' : Store} {c c' : Nat} {bs : Bitstream} (h : parseBitstreamNALULength nd opts (framed k (a ++ u :: (b ++ d))) k σ c = .val (bs, σ', c')) :
    ∃ (ra rb rz : List (Option (Nat × Option NaluChecksum × NalHeader × Payload))) (r : Option (Nat × Option NaluChecksum × NalHeader × Payload)),
      ra.length = a.length ∧ rb.length = b.length ∧ rz.length = d.length ∧ contents bs = (ra ++ r :: (rb ++ rz)).filterMap id ∧
      ∃ bs2 c2, parseBitstreamNALULength nd opts (framed k (a ++ u :: (b ++ u :: d))) k σ c = .val (bs2, σ', c2) ∧
        contents bs2 = (ra ++ r :: (rb ++ r :: rz)).filterMap id := by
  have hm : ∀ x ∈ a ++ u :: (b ++ d), x ∈ a ++ u :: (b ++ u :: d) := by
    intro x hx
    simp only [List.mem_append, List.mem_cons] at hx ⊢
    rcases hx with h | h | h | h
    · exact .inl h
    · exact .inr (.inl h)
    · exact .inr (.inr (.inl h))
    · exact .inr (.inr (.inr (.inr h)))
  have hl2 : (framed k (a ++ u :: (b ++ d))).length < 2 ^ 61 := by
    simp only [framed_sum, List.map_append, List.map_cons, List.sum_append, List.sum_cons] at hl ⊢
    omega
  have hlen : ∀ x ∈ a ++ u :: (b ++ u :: d), x.length < 2 ^ 61 := fun x hx => Nat.lt_of_le_of_lt (framed_mem_le k _ x hx) hl
  obtain ⟨rs, h1, h2⟩ := (framed_runs nd opts hk (fun x hx => hu x (hm x hx)) hl2 σ c _ σ' c').mp ⟨bs, h, rfl⟩
  obtain ⟨ra, r, rb, rz, rfl, h3, h4, h5⟩ := split3 h1.length
  refine ⟨ra.map (·.map contentOf), rb.map (·.map contentOf), rz.map (·.map contentOf), r.map contentOf, by rw [List.length_map, h3],
    by rw [List.length_map, h4], by rw [List.length_map, h5], by rw [← h2, List.map_append, List.map_cons, List.map_append], ?_⟩
  obtain ⟨c2, h6⟩ := (runs_repeated (nd := nd) (opts := opts) (a := a) (b := b) (d := d) (u := u) ht hp
    hb (hlen u (by simp)) (fun x hx => hlen x (by simp [hx])) σ σ' c ra r rb rz h3 h4).mp ⟨c', h1⟩
  obtain ⟨bs2, h7, h8⟩ := (framed_runs nd opts hk hu hl σ c _ σ' c2).mpr ⟨_, h6, rfl⟩
  refine ⟨bs2, c2, h7, ?_⟩
  rw [h8, List.map_append, List.map_cons, List.map_append, List.map_cons]

/-- C87: NAL units of a stream with sizes that are no parameter sets can come in any order. -/
theorem C87_length {nd : Bool} {opts : ParsingOptions} {k : Nat} (hk : 0 < k) {us qs qs' vs : List (List UInt8)}
    (hu : ∀ u ∈ us ++ qs ++ vs, u ≠ [] ∧ u.length < 256 ^ k) (hp : qs.Perm qs') (hl : (framed k (us ++ qs ++ vs)).length < 2 ^ 61)
    (hs : ∀ q ∈ qs, ∀ t ∈ parameterSetTypes, packetType q ≠ some t) {σ σ' : Store} {c c' : Nat} {bs : Bitstream}
    (h : parseBitstreamNALULength nd opts (framed k (us ++ qs ++ vs)) k σ c = .val (bs, σ', c')) :
    ∃ (bs' : Bitstream) (ru rq rq' rv : List (Option (Nat × Option NaluChecksum × NalHeader × Payload))),
      parseBitstreamNALULength nd opts (framed k (us ++ qs' ++ vs)) k σ c = .val (bs', σ', c') ∧
      ru.length = us.length ∧ rq.length = qs.length ∧ rq'.length = qs'.length ∧ rv.length = vs.length ∧
      contents bs = (ru ++ rq ++ rv).filterMap id ∧ contents bs' = (ru ++ rq' ++ rv).filterMap id ∧ (qs'.zip rq').Perm (qs.zip rq) := by
  obtain ⟨rs, h1, h2⟩ := (framed_runs nd opts hk hu hl σ c _ σ' c').mp ⟨bs, h, rfl⟩
  obtain ⟨x1, rv, σ1, c1, rfl, h3, h4⟩ := h1.split
  obtain ⟨ru, rq, σ2, c2, rfl, h5, h6⟩ := h3.split
  obtain ⟨rq', h7, h8⟩ := h6.perm (shift_nal nd opts) hp (fun z hz τ d τ' d' g =>
    nal_no_set (Nat.lt_of_le_of_lt (framed_mem_le k _ z.1 (by simp [zip_mem hz])) hl) g (hs _ (zip_mem hz)))
  have hl' : (framed k (us ++ qs' ++ vs)).length < 2 ^ 61 := by
    rw [framed_append_length, framed_append_length] at hl ⊢
    have e : (framed k qs).length = (framed k qs').length := by
      rw [framed_sum, framed_sum]
      exact (hp.map _).sum_nat
    omega
  obtain ⟨bs', g1, g2⟩ := (framed_runs nd opts hk (fun x hx => hu x (by
    simp only [List.mem_append] at hx ⊢
    rcases hx with (hx | hx) | hx
    · exact .inl (.inl hx)
    · exact .inl (.inr (hp.mem_iff.mpr hx))
    · exact .inr hx)) hl' σ c _ σ' c').mpr ⟨_, (h5.append h7).append h4, rfl⟩
  refine ⟨bs', ru.map (·.map contentOf), rq.map (·.map contentOf), rq'.map (·.map contentOf), rv.map (·.map contentOf), g1, ?_, ?_, ?_, ?_, ?_, ?_, ?_⟩
  · rw [List.length_map, h5.length]
  · rw [List.length_map, h6.length]
  · rw [List.length_map, h7.length]
  · rw [List.length_map, h4.length]
  · rw [← h2, List.map_append, List.map_append]
  · rw [g2, List.map_append, List.map_append]
  · rw [List.zip_map_right, List.zip_map_right]
    exact h8.map _

/-! ### Examples -/

/-- Two slices of a stream with sizes of 2 bytes: in this order, in the other, with the PPS once more in between, and with the first lost. -/
example (nd : Bool) :
    (∃ r, parseBitstreamNALULength nd {} (framed 2 (cutSets.map (·.2) ++ [[0x01, 0xb8, 0x10, 0x10, 0x11, 0x80], [0x01, 0xb8, 0x30, 0x10, 0x11, 0x80]])) 2
      {} 0 = .val r ∧ frameNums r.1 = (4, [some 8, some 24])) ∧
    (∃ r, parseBitstreamNALULength nd {} (framed 2 (cutSets.map (·.2) ++ [[0x01, 0xb8, 0x30, 0x10, 0x11, 0x80], [0x01, 0xb8, 0x10, 0x10, 0x11, 0x80]])) 2
      {} 0 = .val r ∧ frameNums r.1 = (4, [some 24, some 8])) ∧
    (∃ r, parseBitstreamNALULength nd {} (framed 2 (cutSets.map (·.2) ++ [[0x01, 0xb8, 0x10, 0x10, 0x11, 0x80]] ++ (cutSets.map (·.2)).drop 1 ++
      [[0x01, 0xb8, 0x30, 0x10, 0x11, 0x80]])) 2 {} 0 = .val r ∧ frameNums r.1 = (5, [some 8, some 24])) ∧
    (∃ r, parseBitstreamNALULength nd {} (framed 2 (cutSets.map (·.2) ++ [[0x01, 0xb8, 0x30, 0x10, 0x11, 0x80]])) 2 {} 0 = .val r ∧
      frameNums r.1 = (3, [some 24])) := by
  cases nd <;> exact ⟨exists_dec (by decide +kernel), exists_dec (by decide +kernel), exists_dec (by decide +kernel), exists_dec (by decide +kernel)⟩

end H264.Props
