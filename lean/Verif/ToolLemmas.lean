import Verif.Model.Tool
import Verif.Spec.Tool
import Verif.EscapeLemmas

/-
Lemmas about the model of the tool.
-/

namespace H264
open Spec

theorem decU_eq (n : Nat) : decU n = (toString n).toList := by
  show _ = (Nat.repr n).toList
  unfold decU Nat.repr
  simp

theorem decI_eq (i : Int) : decI i = (toString i).toList := by
  unfold decI
  cases i with
  | ofNat n =>
    rw [if_neg (by simp)]
    exact decU_eq n
  | negSucc n =>
    rw [if_pos (Int.negSucc_lt_zero n), decU_eq]
    show _ = (("-" ++ Nat.repr (n + 1) : String)).toList
    rw [String.toList_append]
    rfl

theorem decI_nat (n : Nat) : decI (n : Int) = (toString n).toList := by rw [decI_eq]; rfl

/-! ### Contents -/

theorem hex02_eq (b : UInt8) : hex02 b.toNat = [' ', hexChar (b.toNat / 16), hexChar (b.toNat % 16)] := by
  have : ∀ n : Fin 256, hex02 n.val = [' ', hexChar (n.val / 16), hexChar (n.val % 16)] := by decide +kernel
  exact this ⟨b.toNat, b.toNat_lt⟩

theorem contentsLoop_eq (data : List UInt8) (offset length : Nat) (h : offset + length < 2 ^ 64) :
    ∀ (f i : Nat), length < f + i → i ≤ length → contentsLoop data offset length f i =
      .val (hexBytes i (((data.drop offset).take length).drop i))
  | 0, i, h1, h2 => by omega
  | f + 1, i, h1, h2 => by
    unfold contentsLoop
    rw [add64_eq (by omega)]
    by_cases hc : i < length ∧ offset + i < data.length
    · rw [if_pos hc, load_eq hc.2, Res.val_bind, contentsLoop_eq data offset length h f (i + 1) (by omega) (by omega), Res.val_bind,
        hex02_eq]
      have hd : ((data.drop offset).take length).drop i =
          data[offset + i] :: ((data.drop offset).take length).drop (i + 1) := by
        rw [List.drop_eq_getElem_cons (by rw [List.length_take, List.length_drop]; omega)]
        congr 1
        rw [List.getElem_take, List.getElem_drop]
      rw [hd]
      show Res.val _ = _
      conv => rhs; rw [hexBytes]
      have : ((i + 1) % 16 = 0) = (i % 16 = 15) := by rw [eq_iff_iff]; omega
      simp only [this]
      rfl
    · rw [if_neg hc, List.drop_of_length_le (by rw [List.length_take, List.length_drop]; omega)]
      rfl

theorem hexChar_inj : ∀ a b : Fin 16, hexChar a.val = hexChar b.val → a = b := by decide +kernel

theorem hexBytes_inj : ∀ (a b : List UInt8) (i : Nat), hexBytes i a = hexBytes i b → a = b
  | [], [], _, _ => rfl
  | [], _ :: _, _, h => by simp [hexBytes] at h
  | _ :: _, [], _, h => by simp [hexBytes] at h
  | x :: a, y :: b, i, h => by
    simp only [hexBytes, List.cons.injEq, true_and, List.append_cancel_left_eq] at h
    obtain ⟨h1, h2, h3⟩ := h
    have hx := x.toNat_lt
    have hy := y.toNat_lt
    have e1 := congrArg Fin.val (hexChar_inj ⟨x.toNat / 16, by omega⟩ ⟨y.toNat / 16, by omega⟩ h1)
    have e2 := congrArg Fin.val (hexChar_inj ⟨x.toNat % 16, by omega⟩ ⟨y.toNat % 16, by omega⟩ h2)
    simp only at e1 e2
    have e : x = y := UInt8.toNat_inj.mp (by omega)
    rw [e, hexBytes_inj a b (i + 1) h3]

/-! ### The table -/

theorem isSlice_iff (n : NalUnit) : isSliceSegment n.nal_unit_header.nal_unit_type = true ↔ IsSlice n := by
  unfold IsSlice isSliceSegment
  split <;> simp_all

theorem csvLine_eq (cells : List String) : csvLine cells = [','].intercalate (cells.map String.toList) ++ ['\n'] := by
  unfold csvLine
  rw [String.toList_append, String.toList_intercalate]
  rfl

theorem csvHeader_eq : csvHeader =
    csvLine ["nal_num", "frame_num", "nal_unit_type", "nal_unit_type_str", "nal_length_bytes", "bitrate_bps", "first_mb_in_slice"] := by
  decide +kernel

/-- What the row of a NAL unit needs of it. -/
structure CsvRow (n : NalUnit) : Prop where
  header : ∀ x, n.nal_unit_payload.slice_layer_without_partitioning_rbsp = some x →
    ∃ h, x.slice_header = some h ∧ h.first_mb_in_slice < 2 ^ 31
  type : n.nal_unit_header.nal_unit_type < 32

/-- What the table needs of a NAL unit. -/
structure CsvOk (n : NalUnit) : Prop extends CsvRow n where
  length : 0 < n.length

theorem csvFirstMb_eq {n : NalUnit} (h : CsvRow n) : csvFirstMb n = .val (firstMb n : Int) := by
  unfold csvFirstMb firstMb
  cases hx : n.nal_unit_payload.slice_layer_without_partitioning_rbsp with
  | none => rfl
  | some x =>
    obtain ⟨hd, h1, h2⟩ := h.header x hx
    dsimp only
    rw [h1]
    dsimp only
    rw [toI32_eq h2]
    simp [h1]

theorem unitRow_eq {n : NalUnit} (h : CsvRow n) (hl : n.length < 2 ^ 31) {T last : Int} (i f : Nat) :
    unitRow n ⟨T, i, f, last⟩ (if IsSlice n then decI (firstMb n) else []) = unitLine i f n := by
  unfold unitRow unitLine
  have h3 := h.type
  rw [csvLine_eq, toI32_eq (by omega), Nat.mod_eq_of_lt (by omega), toI32_eq hl]
  simp only [decI_nat]
  by_cases hs : IsSlice n
  · simp only [if_pos hs, List.intercalate, List.map_cons, List.map_nil, List.intersperse, List.flatten_cons, List.flatten_nil,
      List.append_assoc, List.cons_append, List.nil_append, List.append_nil]
    rfl
  · simp only [if_neg hs, List.intercalate, List.map_cons, List.map_nil, List.intersperse, List.flatten_cons, List.flatten_nil,
      List.append_assoc, List.cons_append, List.nil_append, List.append_nil]
    rfl

theorem frameRow_eq (fps : Int) (B f t : Nat) (i : Int) (h0 : 0 ≤ fps) (h1 : B < 2 ^ 31) (h2 : 8 * (B : Int) * fps < 2 ^ 63) :
    frameRow fps ⟨B, i, f, t⟩ = .val (csvLine ["", toString f, toString t, "frame", "", toString (8 * (B : Int) * fps), ""]) := by
  unfold frameRow sint64
  dsimp only
  rw [if_pos (by omega), Res.val_bind]
  have e : (B : Int) * 8 * fps = 8 * (B : Int) * fps := by rw [Int.mul_comm (B : Int) 8]
  have h3 : 0 ≤ 8 * (B : Int) * fps := Int.mul_nonneg (by omega) h0
  rw [e, if_pos ⟨by omega, h2⟩, Res.val_bind, csvLine_eq]
  show Res.val _ = _
  simp only [decI_nat, decI_eq (8 * (B : Int) * fps), List.intercalate, List.map_cons, List.map_nil, List.intersperse,
    List.flatten_cons, List.flatten_nil, List.append_assoc, List.cons_append, List.nil_append, List.append_nil]
  rfl

theorem sliceBytes_cons (n : NalUnit) (ns : List NalUnit) :
    sliceBytes (n :: ns) = (if IsSlice n then n.length else 0) + sliceBytes ns := by
  unfold sliceBytes
  by_cases h : IsSlice n
  · rw [List.filter_cons_of_pos (by simpa using h), if_pos h]; simp
  · rw [List.filter_cons_of_neg (by simpa using h), if_neg h]; simp

theorem lastSliceType_cons (n : NalUnit) (ns : List NalUnit) :
    lastSliceType (n :: ns) = (lastSliceType ns).or (if IsSlice n then some n.nal_unit_header.nal_unit_type else none) := by
  unfold lastSliceType
  by_cases h : IsSlice n
  · rw [List.filter_cons_of_pos (by simpa using h), if_pos h, List.getLast?_cons]
    cases (ns.filter (fun n => decide (IsSlice n))).getLast? <;> simp
  · rw [List.filter_cons_of_neg (by simpa using h), if_neg h]; simp

/-- The type in `last_slice_nal_unit_type` after NAL units `ns`. -/
def lastAfter (last : Int) (ns : List NalUnit) : Int := ((lastSliceType ns).map (fun t : Nat => (t : Int))).getD last

theorem lastAfter_cons (last : Int) (n : NalUnit) (ns : List NalUnit) :
    lastAfter last (n :: ns) = lastAfter (if IsSlice n then (n.nal_unit_header.nal_unit_type : Int) else last) ns := by
  unfold lastAfter
  rw [lastSliceType_cons]
  cases lastSliceType ns <;> by_cases h : IsSlice n <;> simp [h]

theorem csvNewFrame_no {fps mb : Int} {s : CsvState} (h : mb ≠ 0 ∨ s.total_bytes = 0) : csvNewFrame fps mb s = .val ([], s) := by
  unfold csvNewFrame
  rw [if_neg (by omega)]

theorem csvNewFrame_yes {fps : Int} (h0 : 0 ≤ fps) {B i f t : Nat} (h1 : 0 < B) (h2 : B < 2 ^ 31) (h3 : f + 1 < 2 ^ 31)
    (h4 : 8 * (B : Int) * fps < 2 ^ 63) :
    csvNewFrame fps 0 ⟨B, i, f, t⟩ =
      .val (csvLine ["", toString f, toString t, "frame", "", toString (8 * (B : Int) * fps), ""], ⟨0, i, (f + 1 : Nat), t⟩) := by
  unfold csvNewFrame
  dsimp only
  rw [if_pos ⟨rfl, by omega⟩, frameRow_eq fps B f t i h0 h2 h4, Res.val_bind, sint_eq (by omega) (by omega), Res.val_bind]
  rfl

/-- A slice. -/
theorem csvUnit_slice {fps : Int} {n : NalUnit} (h : CsvRow n) (hs : IsSlice n) {s : CsvState} {t : Text} {T i f : Nat} {last : Int}
    (hf : csvNewFrame fps (firstMb n) s = .val (t, ⟨T, i, f, last⟩)) (hT : T + n.length < 2 ^ 31) (hi : i + 1 < 2 ^ 31) :
    csvUnit fps n s = .val (t ++ unitLine i f n, ⟨(T + n.length : Nat), (i + 1 : Nat), f, n.nal_unit_header.nal_unit_type⟩) := by
  have hrow := fun (T last : Int) => unitRow_eq h (show n.length < 2 ^ 31 by omega) (T := T) (last := last) i f
  have htype := h.type
  unfold csvUnit
  rw [if_pos ((isSlice_iff n).mpr hs), csvFirstMb_eq h, Res.val_bind, hf, Res.val_bind]
  dsimp only
  rw [Nat.mod_eq_of_lt (by omega), toI32_eq (by omega : n.length < 2 ^ 31), toI32_eq (by omega), sint_eq (by omega) (by omega),
    Res.val_bind, sint_eq (by omega) (by omega), Res.val_bind]
  simp only [if_pos hs] at hrow
  rw [hrow]
  simp only [Int.natCast_add]
  rfl

/-- Another NAL unit. -/
theorem csvUnit_other {fps : Int} {n : NalUnit} (h : CsvRow n) (hs : ¬ IsSlice n) {T last : Int} {i f : Nat}
    (hl : n.length < 2 ^ 31) (hi : i + 1 < 2 ^ 31) :
    csvUnit fps n ⟨T, i, f, last⟩ = .val (unitLine i f n, ⟨T, (i + 1 : Nat), f, last⟩) := by
  have hrow := unitRow_eq h hl (T := T) (last := last) i f
  unfold csvUnit
  rw [if_neg (fun h => hs ((isSlice_iff n).mp h))]
  dsimp only
  rw [sint_eq (by omega) (by omega), Res.val_bind]
  simp only [if_neg hs] at hrow
  rw [hrow]
  simp only [Int.natCast_add]
  rfl

theorem csvUnits_cons {fps : Int} {n : NalUnit} {ns : List NalUnit} {s s' : CsvState} {t : Text}
    (h : csvUnit fps n s = .val (t, s')) : csvUnits fps (n :: ns) s = (csvUnits fps ns s' >>= fun r => .val (t ++ r)) := by
  rw [csvUnits, h, Res.val_bind]
  rfl

/-- NAL units that open no frame. -/
theorem csv_rest (fps : Int) : ∀ (r rest : List NalUnit) (T i f : Nat) (last : Int),
    (∀ m ∈ r, CsvOk m ∧ (IsSlice m → firstMb m ≠ 0)) → T + (r.map (·.length)).sum < 2 ^ 31 → i + r.length < 2 ^ 31 →
    csvUnits fps (r ++ rest) ⟨T, i, f, last⟩ =
      (csvUnits fps rest ⟨(T + sliceBytes r : Nat), (i + r.length : Nat), f, lastAfter last r⟩ >>= fun t =>
        .val (unitLines i f r ++ t))
  | [], rest, T, i, f, last, _, _, _ => by
    show csvUnits fps rest _ = _
    simp only [unitLines, List.nil_append]
    show _ = (csvUnits fps rest ⟨T, i, f, last⟩ >>= fun t => Res.val t)
    cases csvUnits fps rest ⟨T, i, f, last⟩ <;> rfl
  | n :: r, rest, T, i, f, last, h, hT, hi => by
    have hn := h n (by simp)
    simp only [List.map_cons, List.sum_cons, List.length_cons] at hT hi
    have ih := csv_rest fps r rest (T + if IsSlice n then n.length else 0) (i + 1) f
      (if IsSlice n then (n.nal_unit_header.nal_unit_type : Int) else last) (fun m hm => h m (by simp [hm]))
      (by split <;> omega) (by omega)
    have e : csvUnit fps n ⟨T, i, f, last⟩ = .val (unitLine i f n, ⟨(T + if IsSlice n then n.length else 0 : Nat), (i + 1 : Nat), f,
        if IsSlice n then (n.nal_unit_header.nal_unit_type : Int) else last⟩) := by
      by_cases hs : IsSlice n
      · rw [csvUnit_slice hn.1.toCsvRow hs (csvNewFrame_no (.inl (by have := hn.2 hs; omega))) (by omega) (by omega)]
        simp only [if_pos hs, List.nil_append]
      · rw [csvUnit_other hn.1.toCsvRow hs (by omega) (by omega)]
        simp only [if_neg hs, Nat.add_zero]
    rw [List.cons_append, csvUnits_cons e, ih, sliceBytes_cons, lastAfter_cons,
      show i + (n :: r).length = i + 1 + r.length by simp only [List.length_cons]; omega,
      ← Nat.add_assoc, show unitLines i f (n :: r) = unitLine i f n ++ unitLines (i + 1) f r from rfl]
    generalize csvUnits fps rest _ = x
    cases x with
    | bad e => simp only [Res.bad_bind]
    | val t => simp only [Res.val_bind, List.append_assoc]

theorem sliceBytes_le : ∀ ns : List NalUnit, sliceBytes ns ≤ (ns.map (·.length)).sum
  | [] => Nat.le_refl _
  | n :: ns => by
    rw [sliceBytes_cons, List.map_cons, List.sum_cons]
    have := sliceBytes_le ns
    split <;> omega

theorem rate_lt {fps : Int} (h0 : 0 ≤ fps) {a b : Nat} (h : a ≤ b) (hb : 8 * (b : Int) * fps < 2 ^ 63) : 8 * (a : Int) * fps < 2 ^ 63 :=
  Int.lt_of_le_of_lt (Int.mul_le_mul_of_nonneg_right (by omega) h0) hb

/-- The type of the last slice of a frame. -/
theorem lastAfter_frame {n : NalUnit} (hs : IsSlice n) (r : List NalUnit) :
    lastAfter (n.nal_unit_header.nal_unit_type : Nat) r = (((lastSliceType (n :: r)).getD 0 : Nat) : Int) := by
  unfold lastAfter
  rw [lastSliceType_cons, if_pos hs]
  cases lastSliceType r <;> rfl

/-- The frames, when frame `f` has been opened by `n` and its other NAL units `r` follow. -/
theorem csv_frames {fps : Int} (h0 : 0 ≤ fps) : ∀ (gs : List (List NalUnit)) (n : NalUnit) (r : List NalUnit) (i f : Nat),
    CsvOk n → IsSlice n → (∀ m ∈ r, CsvOk m ∧ (IsSlice m → firstMb m ≠ 0)) →
    (∀ g ∈ gs, ∃ n r, g = n :: r ∧ CsvOk n ∧ IsSlice n ∧ firstMb n = 0 ∧ ∀ m ∈ r, CsvOk m ∧ (IsSlice m → firstMb m ≠ 0)) →
    n.length + (r.map (·.length)).sum + (gs.flatten.map (·.length)).sum < 2 ^ 31 →
    8 * ((n.length + (r.map (·.length)).sum + (gs.flatten.map (·.length)).sum : Nat) : Int) * fps < 2 ^ 63 →
    i + r.length + gs.flatten.length < 2 ^ 31 → f ≤ i →
    csvUnits fps (r ++ gs.flatten) ⟨n.length, i, f, (n.nal_unit_header.nal_unit_type : Nat)⟩ =
      .val (unitLines i f r ++ (frameLine fps f (n :: r) ++ frameLines fps (i + r.length) (f + 1) gs)) := by
  intro gs
  induction gs with
  | nil =>
    intro n r i f hn hs hr _ hB hR hi hf
    simp only [List.flatten_nil, List.map_nil, List.sum_nil, List.length_nil, Nat.add_zero] at hB hR hi
    have hle := sliceBytes_le r
    have hpos := hn.length
    have hlt := rate_lt h0 (show n.length + sliceBytes r ≤ _ by omega) hR
    rw [List.flatten_nil, csv_rest fps r [] n.length i f _ hr hB (by omega), csvUnits, if_pos (by dsimp only; omega), lastAfter_frame hs,
      frameRow_eq fps _ f _ _ h0 (by omega) hlt, Res.val_bind]
    unfold frameLine
    rw [sliceBytes_cons, if_pos hs, frameLines, List.append_nil]
  | cons g gs ih =>
    intro n r i f hn hs hr hg hB hR hi hf
    obtain ⟨m, q, rfl, hm, hsm, hz, hq⟩ := hg g (by simp)
    simp only [List.flatten_cons, List.map_append, List.map_cons, List.sum_append, List.sum_cons, List.length_append,
      List.length_cons] at hB hR hi
    have hle := sliceBytes_le r
    have hpos := hn.length
    have hlt := rate_lt h0 (show n.length + sliceBytes r ≤ _ by omega) hR
    rw [csv_rest fps r _ n.length i f _ hr (by omega) (by omega), lastAfter_frame hs, List.flatten_cons, List.cons_append]
    have e := csvNewFrame_yes h0 (B := n.length + sliceBytes r) (i := i + r.length) (f := f) (t := (lastSliceType (n :: r)).getD 0)
      (by omega) (by omega) (by omega) hlt
    rw [csvUnits_cons (csvUnit_slice hm.toCsvRow hsm (T := 0) (by rw [hz]; exact e) (by omega) (by omega)), Nat.zero_add,
      ih m q (i + r.length + 1) (f + 1) hm hsm hq (fun g' h' => hg g' (by simp [h'])) (by omega)
        (rate_lt h0 (by omega) hR) (by omega) (by omega), Res.val_bind, Res.val_bind]
    conv => rhs; rw [frameLines, unitLines]
    unfold frameLine
    rw [sliceBytes_cons n r, if_pos hs, List.length_cons, Nat.add_assoc _ 1, Nat.add_comm 1]
    simp only [List.append_assoc]

/-- The whole table. -/
theorem csv_table {fps : Int} (h0 : 0 ≤ fps) {ns before : List NalUnit} {frames : List (List NalUnit)}
    (h : FrameSplit ns before frames) (hok : ∀ n ∈ ns, CsvOk n) (hB : (ns.map (·.length)).sum < 2 ^ 31)
    (hR : 8 * (((ns.map (·.length)).sum : Nat) : Int) * fps < 2 ^ 63) (hi : ns.length < 2 ^ 31) :
    csvUnits fps ns {} = .val (unitLines 0 0 before ++ frameLines fps before.length 0 frames) := by
  obtain ⟨rfl, hb, hf, hz⟩ := h
  simp only [List.map_append, List.sum_append, List.length_append] at hB hR hi
  have hb' : ∀ m ∈ before, CsvOk m ∧ (IsSlice m → firstMb m ≠ 0) :=
    fun m hm => ⟨hok m (by simp [hm]), fun hs => absurd hs (hb m hm)⟩
  have hsb : sliceBytes before = 0 := by
    unfold sliceBytes
    rw [List.filter_eq_nil_iff.mpr (by simpa using hb)]
    rfl
  have e := csv_rest fps before frames.flatten 0 0 0 (-1) hb' (by omega) (by omega)
  have e0 : (⟨(0 : Nat), (0 : Nat), (0 : Nat), -1⟩ : CsvState) = {} := rfl
  rw [e0] at e
  rw [e, hsb, Nat.zero_add, Nat.zero_add]
  cases frames with
  | nil =>
    rw [List.flatten_nil, csvUnits, if_neg (by dsimp only; omega), Res.val_bind, frameLines]
  | cons g gs =>
    obtain ⟨n, r, rfl, hs, hr⟩ := hf g (by simp)
    simp only [List.flatten_cons, List.map_append, List.map_cons, List.sum_append, List.sum_cons, List.length_append,
      List.length_cons] at hB hR hi
    have hn : CsvOk n := hok n (by simp)
    rw [List.flatten_cons, List.cons_append,
      csvUnits_cons (csvUnit_slice hn.toCsvRow hs (T := 0) (csvNewFrame_no (.inr rfl)) (by omega) (by omega)), Nat.zero_add,
      csv_frames h0 gs n r _ 0 hn hs (fun m hm => ⟨hok m (by simp [hm]), hr m hm⟩) (fun g' hg' => ?_) (by omega)
        (rate_lt h0 (by omega) hR) (by omega) (by omega), Res.val_bind, Res.val_bind]
    · conv => rhs; rw [frameLines, unitLines, List.length_cons]
      rw [Nat.add_assoc _ 1, Nat.add_comm 1]
      simp only [List.append_assoc, List.nil_append]
    · obtain ⟨n', r', e', hs', hr'⟩ := hf g' (by simp [hg'])
      obtain ⟨n'', r'', e'', hz'⟩ := hz g' hg'
      rw [e'] at e''
      obtain ⟨rfl, rfl⟩ := List.cons.inj e''
      subst e'
      exact ⟨n', r', rfl, hok n' (by simp only [List.mem_append, List.mem_flatten]; exact .inr ⟨_, List.mem_cons_of_mem _ hg', by simp⟩),
        hs', hz', fun m hm => ⟨hok m (by simp only [List.mem_append, List.mem_flatten]; exact .inr ⟨_, List.mem_cons_of_mem _ hg', by simp [hm]⟩), hr' m hm⟩⟩

/-- Every list of NAL units is split into frames. -/
theorem frames_exist : ∀ ns : List NalUnit, ∃ before frames, FrameSplit ns before frames := by
  -- what follows the slice that opens a frame
  have rest : ∀ ns : List NalUnit, ∃ (r : List NalUnit) (gs : List (List NalUnit)), ns = r ++ gs.flatten ∧ (∀ m ∈ r, IsSlice m → firstMb m ≠ 0) ∧
      ∀ g ∈ gs, ∃ n q, g = n :: q ∧ IsSlice n ∧ firstMb n = 0 ∧ ∀ m ∈ q, IsSlice m → firstMb m ≠ 0 := by
    intro ns
    induction ns with
    | nil => exact ⟨[], [], rfl, by simp, by simp⟩
    | cons n ns ih =>
      obtain ⟨r, gs, e, hr, hg⟩ := ih
      by_cases h : IsSlice n ∧ firstMb n = 0
      · refine ⟨[], (n :: r) :: gs, by simp [e], by simp, ?_⟩
        intro g hg'
        rcases List.mem_cons.mp hg' with rfl | hg'
        · exact ⟨n, r, rfl, h.1, h.2, hr⟩
        · exact hg g hg'
      · refine ⟨n :: r, gs, by simp [e], ?_, hg⟩
        intro m hm hs
        rcases List.mem_cons.mp hm with rfl | hm
        · exact fun hz => h ⟨hs, hz⟩
        · exact hr m hm hs
  intro ns
  induction ns with
  | nil => exact ⟨[], [], rfl, by simp, by simp, by simp⟩
  | cons n ns ih =>
    by_cases h : IsSlice n
    · obtain ⟨r, gs, e, hr, hg⟩ := rest ns
      refine ⟨[], (n :: r) :: gs, by simp [e], by simp, ?_, ?_⟩
      · intro g hg'
        rcases List.mem_cons.mp hg' with rfl | hg'
        · exact ⟨n, r, rfl, h, hr⟩
        · obtain ⟨n', q, e', h1, _, h3⟩ := hg g hg'
          exact ⟨n', q, e', h1, h3⟩
      · intro g hg'
        obtain ⟨n', q, e', _, h2, _⟩ := hg g hg'
        exact ⟨n', q, e', h2⟩
    · obtain ⟨b, gs, e, hb, hf, hz⟩ := ih
      refine ⟨n :: b, gs, by simp [e], ?_, hf, hz⟩
      intro m hm
      rcases List.mem_cons.mp hm with rfl | hm
      · exact h
      · exact hb m hm

end H264
