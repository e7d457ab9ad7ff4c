import Verif.Spec.State
import Verif.Props.Reach
import Verif.Props.Stream

/-
C68: parameter sets from elsewhere do not change how a self-contained stream is parsed.
-/

namespace H264.Props
open H264 H264.Spec Prog

theorem holds_empty (τ : Store) : Holds τ {} := by
  refine ⟨?_, ?_, ?_⟩ <;> intro id x h <;> cases h

theorem holds_refl (τ : Store) : Holds τ τ := ⟨fun _ _ h => h, fun _ _ h => h, fun _ _ h => h⟩

theorem holds_sps {σ τ : Store} (h : Holds τ σ) (a : SpsData) : Holds (τ.addSps (some a)) (σ.addSps (some a)) := by
  refine ⟨fun id x hx => ?_, h.2.1, h.2.2⟩
  simp only [Store.addSps, upd] at hx ⊢
  split at hx
  · rename_i e; rw [if_pos e]; exact hx
  · rename_i e; rw [if_neg e]; exact h.1 id x hx

theorem holds_pps {σ τ : Store} (h : Holds τ σ) (a : Pps) : Holds (τ.addPps (some a)) (σ.addPps (some a)) := by
  refine ⟨h.1, fun id x hx => ?_, h.2.2⟩
  simp only [Store.addPps, upd] at hx ⊢
  split at hx
  · rename_i e; rw [if_pos e]; exact hx
  · rename_i e; rw [if_neg e]; exact h.2.1 id x hx

theorem holds_subset {σ τ : Store} (h : Holds τ σ) (a : SubsetSps) : Holds (τ.addSubsetSps (some a)) (σ.addSubsetSps (some a)) := by
  refine ⟨h.1, h.2.1, fun id x hx => ?_⟩
  simp only [Store.addSubsetSps, upd] at hx ⊢
  split at hx
  · rename_i e; rw [if_pos e]; exact hx
  · rename_i e; rw [if_neg e]; exact h.2.2 id x hx

theorem sliceHeader_holds {σ τ : Store} (h : Holds τ σ) {nd : Bool} {ref type : Nat} {s s' : LSt} {x : SliceHeader}
    (hp : runL nd (parseSliceHeader σ ref type) s = .ok x s') : runL nd (parseSliceHeader τ ref type) s = .ok x s' := by
  unfold parseSliceHeader at hp ⊢
  rw [runL_bind_ok] at hp ⊢
  obtain ⟨y, s1, h1, h2⟩ := hp
  refine ⟨y, s1, h1, ?_⟩
  cases hpp : σ.pps y.2.2 with
  | none => rw [hpp] at h2; cases h2
  | some p =>
    rw [hpp] at h2
    rw [h.2.1 _ _ hpp]
    dsimp only at h2 ⊢
    cases hss : σ.sps p.seq_parameter_set_id with
    | none => rw [hss] at h2; cases h2
    | some q =>
      rw [hss] at h2
      rw [h.1 _ _ hss]
      exact h2

theorem scalHeader_holds {σ τ : Store} (h : Holds τ σ) {nd : Bool} {n : NalHeader} {s s' : LSt} {x : ScalHeader}
    (hp : runL nd (parseScalHeader σ n) s = .ok x s') : runL nd (parseScalHeader τ n) s = .ok x s' := by
  unfold parseScalHeader at hp ⊢
  rw [runL_bind_ok] at hp ⊢
  obtain ⟨y, s1, h1, h2⟩ := hp
  refine ⟨y, s1, h1, ?_⟩
  cases hpp : σ.pps y.2.2 with
  | none => rw [hpp] at h2; cases h2
  | some p =>
    rw [hpp] at h2
    rw [h.2.1 _ _ hpp]
    dsimp only at h2 ⊢
    cases hss : σ.subset_sps p.seq_parameter_set_id with
    | none => rw [hss] at h2; cases h2
    | some q =>
      rw [hss] at h2
      rw [h.2.2 _ _ hss]
      exact h2

/-- The payload, with more parameter sets. -/
theorem payload_holds {σ τ σ' : Store} (h : Holds τ σ) {nd : Bool} {hd : NalHeader} {s s' : LSt} {p : Payload}
    (hp : runL nd (parsePayload σ hd) s = .ok (p, σ') s')
    (hh : HasHeader { nal_unit_header := hd, nal_unit_payload := p }) :
    ∃ τ', runL nd (parsePayload τ hd) s = .ok (p, τ') s' ∧ Holds τ' σ' := by
  rw [runL_payload] at hp ⊢
  by_cases t1 : hd.nal_unit_type = 1 ∨ hd.nal_unit_type = 5
  · rw [if_pos t1] at hp ⊢
    have hh1 := hh.1 t1
    cases hr : runL nd (parseSliceLayer σ hd.nal_ref_idc hd.nal_unit_type) s with
    | bad e => rw [hr] at hp; cases hp
    | null s1 => rw [hr] at hp; cases hp; cases hh1
    | ok a s1 =>
      rw [hr] at hp
      cases hp
      have hr' : runL nd (parseSliceLayer τ hd.nal_ref_idc hd.nal_unit_type) s = .ok a s' := by
        unfold parseSliceLayer at hr ⊢
        rw [runL_bind_ok] at hr ⊢
        obtain ⟨x, s2, h1, h2⟩ := hr
        exact ⟨x, s2, sliceHeader_holds h h1, h2⟩
      rw [hr']
      exact ⟨τ, rfl, h⟩
  rw [if_neg t1] at hp ⊢
  by_cases t2 : hd.nal_unit_type = 7
  · rw [if_pos t2] at hp ⊢
    cases hr : runL nd parseSps s with
    | bad e => rw [hr] at hp; cases hp
    | null s1 => rw [hr] at hp; cases hp; exact ⟨τ, rfl, h⟩
    | ok a s1 => rw [hr] at hp; cases hp; exact ⟨_, rfl, holds_sps h a⟩
  rw [if_neg t2] at hp ⊢
  by_cases t3 : hd.nal_unit_type = 8
  · rw [if_pos t3] at hp ⊢
    cases hr : runL nd (parsePps 1) s with
    | bad e => rw [hr] at hp; cases hp
    | null s1 => rw [hr] at hp; cases hp; exact ⟨τ, rfl, h⟩
    | ok a s1 => rw [hr] at hp; cases hp; exact ⟨_, rfl, holds_pps h a⟩
  rw [if_neg t3] at hp ⊢
  by_cases t4 : hd.nal_unit_type = 14
  · rw [if_pos t4] at hp ⊢
    cases hr : runL nd (parsePrefixPayload hd) s with
    | bad e => rw [hr] at hp; cases hp
    | null s1 => rw [hr] at hp; cases hp
    | ok a s1 => rw [hr] at hp; cases hp; exact ⟨τ, rfl, h⟩
  rw [if_neg t4] at hp ⊢
  by_cases t5 : hd.nal_unit_type = 15
  · rw [if_pos t5] at hp ⊢
    cases hr : runL nd parseSubsetSps s with
    | bad e => rw [hr] at hp; cases hp
    | null s1 => rw [hr] at hp; cases hp; exact ⟨τ, rfl, h⟩
    | ok a s1 => rw [hr] at hp; cases hp; exact ⟨_, rfl, holds_subset h _⟩
  rw [if_neg t5] at hp ⊢
  by_cases t6 : hd.nal_unit_type = 20
  · rw [if_pos t6] at hp ⊢
    obtain ⟨x, hx, hh2⟩ := hh.2 t6
    cases hr : runL nd (parseSliceLayerExt σ hd) s with
    | bad e => rw [hr] at hp; cases hp
    | null s1 => rw [hr] at hp; cases hp; cases hx
    | ok a s1 =>
      rw [hr] at hp
      cases hp
      cases hx
      have hr' : runL nd (parseSliceLayerExt τ hd) s = .ok x s' := by
        unfold parseSliceLayerExt at hr ⊢
        dsimp only at hr ⊢
        by_cases f1 : hd.svc_extension_flag ≠ 0
        · rw [if_pos f1, runL_bind_ok] at hr ⊢
          obtain ⟨y, s2, h1, h2⟩ := hr
          refine ⟨y, s2, ?_, h2⟩
          rw [runL_attempt] at h1 ⊢
          cases hz : runL nd (parseScalHeader σ hd) s with
          | bad e => rw [hz] at h1; cases h1
          | null s3 =>
            rw [hz] at h1
            cases h1
            cases h2
            rcases hh2 with hh2 | hh2 <;> cases hh2
          | ok z s3 =>
            rw [hz] at h1
            rw [scalHeader_holds h hz]
            exact h1
        · rw [if_neg f1] at hr ⊢
          split at hr
          · rename_i f2; rw [if_pos f2]; exact hr
          · rename_i f2
            rw [if_neg f2]
            rw [runL_bind_ok] at hr ⊢
            obtain ⟨y, s2, h1, h2⟩ := hr
            exact ⟨y, s2, sliceHeader_holds h h1, h2⟩
      rw [hr']
      exact ⟨τ, rfl, h⟩
  rw [if_neg t6] at hp ⊢
  cases hp
  exact ⟨τ, rfl, h⟩

/-- C68: a NAL unit that was returned, if it is a slice then with its slice header, is returned just the same when the parser state holds
more parameter sets; what is counted is the same too. -/
theorem C68_nal_unit {nd : Bool} {data : List UInt8} {off len : Nat} (hb : off + len ≤ data.length) (hl : data.length < 2 ^ 61)
    {opts : ParsingOptions} {σ σ' τ : Store} {c c' : Nat} {n : Option NalUnit}
    (h : parseNalUnit nd opts data off len σ c = .val (n, σ', c')) (hn : ∀ u, n = some u → HasHeader u) (hτ : Holds τ σ) :
    ∃ τ', parseNalUnit nd opts data off len τ c = .val (n, τ', c') ∧ Holds τ' σ' := by
  have hfit : Fits nd (strip ((data.drop off).take len)).length := by
    rw [parseNalUnit_eqL hb hl] at h
    split at h
    · assumption
    · cases h
  rw [parseNalUnit_eqL hb hl, if_pos hfit]
  unfold nalUnitL
  rcases nalUnitL_cases (parseNalUnit_val hb hl h) with ⟨rfl, rfl, s, h1, rfl⟩ | ⟨hd, s, p, s', rfl, h1, h2, rfl⟩
  · rw [h1]
    exact ⟨τ, rfl, hτ⟩
  · rw [h1]
    dsimp only
    obtain ⟨τ', h3, h4⟩ := payload_holds hτ h2 ⟨(hn _ rfl).1, (hn _ rfl).2⟩
    rw [h3]
    exact ⟨τ', rfl, h4⟩

theorem inOrder_holds {nd : Bool} {opts : ParsingOptions} {us : List (Nat × List UInt8)} {σ σ' : Store} {c c' : Nat} {ns : List NalUnit}
    (hu : ∀ u ∈ us, u.2.length < 2 ^ 61) (h : InOrder (fun b => parseNalUnit nd opts b 0 b.length) us σ c ns σ' c')
    (hn : ∀ n ∈ ns, HasHeader n) {τ : Store} (hτ : Holds τ σ) :
    ∃ τ', InOrder (fun b => parseNalUnit nd opts b 0 b.length) us τ c ns τ' c' ∧ Holds τ' σ' := by
  induction h generalizing τ with
  | nil σ c => exact ⟨τ, .nil τ c, hτ⟩
  | @skip off bytes _ _ _ _ _ _ _ h1 _ ih =>
    obtain ⟨τ1, h3, h4⟩ := C68_nal_unit (data := bytes) (by omega) (hu (off, bytes) (List.mem_cons_self ..)) h1 (by simp) hτ
    have h5 := parseNalUnit_none (data := bytes) (by omega) (hu (off, bytes) (List.mem_cons_self ..)) h3
    subst h5
    obtain ⟨τ2, h6, h7⟩ := ih (fun u hx => hu u (by simp [hx])) hn h4
    exact ⟨τ2, .skip h3 h6, h7⟩
  | @unit off bytes _ _ _ _ _ _ _ n ns h1 _ ih =>
    have h2 : HasHeader n := ⟨(hn _ (List.mem_cons_self ..)).1, (hn _ (List.mem_cons_self ..)).2⟩
    obtain ⟨τ1, h3, h4⟩ := C68_nal_unit (data := bytes) (by omega) (hu (off, bytes) (List.mem_cons_self ..)) h1 (fun u e => by cases e; exact h2) hτ
    obtain ⟨τ2, h6, h7⟩ := ih (fun u hx => hu u (by simp [hx])) (fun n hx => hn n (List.mem_cons_of_mem _ hx)) h4
    exact ⟨τ2, .unit h3 h6, h7⟩

/-- C68: a stream all of whose slices were returned with their headers is parsed just the same when the parser state holds more
parameter sets. -/
theorem C68_bitstream {nd : Bool} {opts : ParsingOptions} {data : List UInt8} (hl : data.length < 2 ^ 61) {σ σ' τ : Store} {c c' : Nat}
    {bs : Bitstream} (h : parseBitstream nd opts data σ c = .val (bs, σ', c')) (hn : ∀ n ∈ bs.nal_units, HasHeader n) (hτ : Holds τ σ) :
    ∃ τ', parseBitstream nd opts data τ c = .val (bs, τ', c') ∧ Holds τ' σ' := by
  obtain ⟨h1, h2⟩ := (C18_in_order nd opts data hl σ c bs σ' c').mp h
  obtain ⟨τ', h3, h4⟩ := inOrder_holds (slice_lt hl _) h2 hn hτ
  exact ⟨τ', (C18_in_order nd opts data hl τ c bs τ' c').mpr ⟨h1, h3⟩, h4⟩

/-- C68: a self-contained stream, one whose slices are returned with their headers by a new parser, is parsed by a parser with any
history just as by a new one.  Joining at a point from which the stream is self-contained, or seeking to one, is safe. -/
theorem C68_self_contained {nd : Bool} {opts : ParsingOptions} {data : List UInt8} (hl : data.length < 2 ^ 61) {σ' : Store} {c c' : Nat}
    {bs : Bitstream} (h : parseBitstream nd opts data {} c = .val (bs, σ', c')) (hn : ∀ n ∈ bs.nal_units, HasHeader n) (τ : Store) :
    ∃ τ', parseBitstream nd opts data τ c = .val (bs, τ', c') ∧ Holds τ' σ' :=
  C68_bitstream hl h hn (holds_empty τ)

/-- The stream of the example is self-contained, and has a slice. -/
example (nd : Bool) (τ : Store) : ∃ bs τ' c', parseBitstream nd {} (annexB exStreamUnits) τ 0 = .val (bs, τ', c') ∧ bs.nal_units.length = 5 ∧
    bs.nal_units.map (·.nal_unit_payload.slice_layer_without_partitioning_rbsp.isSome) = [false, false, false, true, false] := by
  obtain ⟨σ', h⟩ := exStream
  obtain ⟨bs, h1, h2, _⟩ := C51_stream nd {} empty_valid h (by decide +kernel) 0
  have h3 : ∀ n ∈ bs.nal_units, HasHeader n := by
    intro n hn
    have := List.mem_map_of_mem (f := fun n => (n.nal_unit_header, n.nal_unit_payload)) hn
    rw [h2] at this
    simp only [List.mem_cons, List.not_mem_nil, or_false] at this
    rcases this with e | e | e | e | e <;> obtain ⟨e1, e2⟩ := Prod.mk.inj e <;> unfold HasHeader <;> rw [e1, e2] <;>
      exact ⟨by first | exact fun h => absurd h (by decide) | exact fun _ => rfl, fun h => absurd h (by decide)⟩
  obtain ⟨τ', h4, _⟩ := C68_self_contained (by decide +kernel) h1 h3 τ
  refine ⟨bs, τ', 0, h4, by simpa using congrArg List.length h2, ?_⟩
  have := congrArg (List.map fun x => x.2.slice_layer_without_partitioning_rbsp.isSome) h2
  rw [List.map_map] at this
  exact this

end H264.Props
