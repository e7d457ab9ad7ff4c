import Verif.Codecs.RefPic

/-
Properties C31-C33: reference picture list modification, decoded reference picture marking, prediction weight table.
-/

namespace H264.Props
open H264

/-- C31: `ParseRefPicListModification` returns `m` iff the next bits are its 7.3.3.1 encoding and its operations are in
range; it has then consumed exactly that encoding. -/
theorem C31_refPicListMod_exact (nd : Bool) {b : Buf} (hb : b.WF) (c t : Nat) (m : RefPicListMod) (s' : St) :
    run nd (parseRefPicListMod t) ⟨b, c⟩ = .ok m s' ↔
      m.Ok t ∧ (∃ r, b.rem = encRefPicListMod m ++ r) ∧ s' = ⟨b.adv (encRefPicListMod m).length, c⟩ :=
  (codec_refPicListMod t).run nd hb c m s'

/-- C31: undefined behaviour never happens; in particular the loop, which has no bound of its own, terminates. -/
theorem C31_refPicListMod_safe (nd : Bool) {b : Buf} (hb : b.WF) (c t : Nat) (e : Bad) :
    run nd (parseRefPicListMod t) ⟨b, c⟩ ≠ .bad e :=
  (safe_refPicListMod t).run nd hb c e

theorem modOps_le {f : Nat} {ops : List (Nat × Nat)} (h : ModListOk f ops) : ∀ x ∈ ops.map (·.1), x ≤ 2 := by
  obtain ⟨_, h⟩ := h
  intro x hx
  obtain ⟨o, ho, rfl⟩ := List.mem_map.mp hx
  split at h
  · exact (h o ho).1
  · subst h; cases ho

/-- C31: the vector `modification_of_pic_nums_idc` of a returned state is, for each list whose flag is set, a sequence
of values in 0..2 closed by a 3, list 0 before list 1: it ends at the first 3 of each list.  The operand vectors have
one entry per 0 or 1, and per 2. -/
theorem C31_refPicListMod_vectors (nd : Bool) {b : Buf} (hb : b.WF) (c t : Nat) {m : RefPicListMod} {s' : St}
    (h : run nd (parseRefPicListMod t) ⟨b, c⟩ = .ok m s') :
    (∃ v0 v1 : List Nat, (∀ x ∈ v0, x ≤ 2) ∧ (∀ x ∈ v1, x ≤ 2) ∧
      m.modification_of_pic_nums_idc = (if m.ref_pic_list_modification_flag_l0 = 1 then v0 ++ [3] else []) ++
        (if m.ref_pic_list_modification_flag_l1 = 1 then v1 ++ [3] else [])) ∧
    m.abs_diff_pic_num_minus1.length = (m.modification_of_pic_nums_idc.filter (fun x => decide (x ≤ 1))).length ∧
    m.long_term_pic_num.length = (m.modification_of_pic_nums_idc.filter (fun x => decide (x = 2))).length := by
  obtain ⟨ok, -⟩ := (C31_refPicListMod_exact nd hb c t m s').mp h
  have key : ∀ (f : Nat) (ops : List (Nat × Nat)), (ModListOk f ops ∨ (f = 0 ∧ ops = [])) →
      (∀ x ∈ ops.map (·.1), x ≤ 2) ∧ (f = 1 ∨ (f = 0 ∧ ops = [])) := by
    intro f ops h
    rcases h with h | ⟨rfl, rfl⟩
    · refine ⟨modOps_le h, ?_⟩
      obtain ⟨h1, h2⟩ := h
      by_cases hf : f = 1
      · exact .inl hf
      · rw [if_neg hf] at h2; exact .inr ⟨by omega, h2⟩
    · exact ⟨by simp, .inr ⟨rfl, rfl⟩⟩
  have k0 := key m.ref_pic_list_modification_flag_l0 m.ops_l0 (by
    have := ok.l0; split at this
    · exact .inl this
    · exact .inr this)
  have k1 := key m.ref_pic_list_modification_flag_l1 m.ops_l1 (by
    have := ok.l1; split at this
    · exact .inl this
    · exact .inr this)
  have hlen : ∀ (p : Nat → Bool), p 3 = false → ((m.ops_l0 ++ m.ops_l1).filter (fun o => p o.1)).length =
      (m.modification_of_pic_nums_idc.filter p).length := by
    intro p hp
    unfold RefPicListMod.modification_of_pic_nums_idc
    have e : ∀ l : List (Nat × Nat), (l.filter (fun o => p o.1)).length = ((l.map (·.1)).filter p).length := by
      intro l; rw [List.filter_map, List.length_map]; rfl
    rw [List.filter_append, List.length_append, List.filter_append, List.length_append, e, e]
    congr 1
    · rcases k0.2 with h | ⟨h, h'⟩
      · rw [h, if_pos (by decide), List.filter_append]; simp [hp]
      · rw [h, h']; rfl
    · rcases k1.2 with h | ⟨h, h'⟩
      · rw [h, if_pos (by decide), List.filter_append]; simp [hp]
      · rw [h, h']; rfl
  refine ⟨⟨m.ops_l0.map (·.1), m.ops_l1.map (·.1), k0.1, k1.1, ?_⟩, ?_, ?_⟩
  · unfold RefPicListMod.modification_of_pic_nums_idc
    congr 1
    · rcases k0.2 with h | ⟨h, h'⟩ <;> rw [h] <;> rfl
    · rcases k1.2 with h | ⟨h, h'⟩ <;> rw [h] <;> rfl
  · unfold RefPicListMod.abs_diff_pic_num_minus1
    rw [List.length_map]; exact hlen (fun x => decide (x ≤ 1)) rfl
  · unfold RefPicListMod.long_term_pic_num
    rw [List.length_map]; exact hlen (fun x => decide (x = 2)) rfl

/-- A B slice modification using every idc. -/
def exMod : RefPicListMod :=
  { slice_type := 6, ref_pic_list_modification_flag_l0 := 1, ref_pic_list_modification_flag_l1 := 1,
    ops_l0 := [(0, 5), (2, 1), (1, 4294967294)], ops_l1 := [(2, 0)] }

theorem exMod_ok : exMod.Ok 6 := by constructor <;> (simp [exMod, ModListOk, ueRange])

example (nd : Bool) : runL nd (parseRefPicListMod 6) ⟨encRefPicListMod exMod ++ [true], 0⟩ = .ok exMod ⟨[true], 0⟩ :=
  (codec_refPicListMod 6).parse_append nd exMod_ok _ _
example : exMod.modification_of_pic_nums_idc = [0, 2, 1, 3, 2, 3] ∧ exMod.abs_diff_pic_num_minus1 = [5, 4294967294] ∧
    exMod.long_term_pic_num = [1, 0] := by decide +kernel

/-- C32: `ParseDecRefPicMarking` returns `m` iff the next bits are its 7.3.3.3 encoding and its operations are in
range; it has then consumed exactly that encoding. -/
theorem C32_decRefPicMarking_exact (nd : Bool) {b : Buf} (hb : b.WF) (c idr : Nat) (m : DecRefPicMarking) (s' : St) :
    run nd (parseDecRefPicMarking idr) ⟨b, c⟩ = .ok m s' ↔
      m.Ok idr ∧ (∃ r, b.rem = encDecRefPicMarking m ++ r) ∧ s' = ⟨b.adv (encDecRefPicMarking m).length, c⟩ :=
  (codec_decRefPicMarking idr).run nd hb c m s'

/-- C32: undefined behaviour never happens, and the loop terminates. -/
theorem C32_decRefPicMarking_safe (nd : Bool) {b : Buf} (hb : b.WF) (c idr : Nat) (e : Bad) :
    run nd (parseDecRefPicMarking idr) ⟨b, c⟩ ≠ .bad e :=
  (safe_decRefPicMarking idr).run nd hb c e

/-- C32: the vector `memory_management_control_operation` of a returned state is empty, or a sequence of values in
1..6 closed by a 0; the operand vectors have one entry per operation that takes the operand. -/
theorem C32_decRefPicMarking_vectors (nd : Bool) {b : Buf} (hb : b.WF) (c idr : Nat) {m : DecRefPicMarking} {s' : St}
    (h : run nd (parseDecRefPicMarking idr) ⟨b, c⟩ = .ok m s') :
    (∃ v : List Nat, (∀ x ∈ v, 1 ≤ x ∧ x ≤ 6) ∧
      m.memory_management_control_operation = if m.adaptive_ref_pic_marking_mode_flag = 1 then v ++ [0] else []) ∧
    m.difference_of_pic_nums_minus1.length =
      (m.memory_management_control_operation.filter (fun x => decide (x = 1 ∨ x = 3))).length ∧
    m.long_term_pic_num.length = (m.memory_management_control_operation.filter (fun x => decide (x = 2))).length ∧
    m.long_term_frame_idx.length =
      (m.memory_management_control_operation.filter (fun x => decide (x = 3 ∨ x = 6))).length ∧
    m.max_long_term_frame_idx_plus1.length =
      (m.memory_management_control_operation.filter (fun x => decide (x = 4))).length := by
  obtain ⟨ok, -⟩ := (C32_decRefPicMarking_exact nd hb c idr m s').mp h
  have hops := ok.ops
  have ha := ok.adaptive
  have hv : m.memory_management_control_operation =
      if m.adaptive_ref_pic_marking_mode_flag = 1 then m.ops.map (·.memory_management_control_operation) ++ [0] else [] := by
    unfold DecRefPicMarking.memory_management_control_operation
    by_cases h1 : m.adaptive_ref_pic_marking_mode_flag = 1
    · rw [if_pos h1, if_pos (by omega)]
    · rw [if_neg h1, if_neg (by omega)]
  have hlen : ∀ (p : Nat → Bool), p 0 = false →
      (m.ops.filter (fun o => p o.memory_management_control_operation)).length =
      (m.memory_management_control_operation.filter p).length := by
    intro p hp
    rw [hv]
    by_cases h1 : m.adaptive_ref_pic_marking_mode_flag = 1
    · rw [if_pos h1, List.filter_append, List.filter_map, List.length_append, List.length_map]; simp [hp]; rfl
    · rw [if_neg h1] at hops ⊢; rw [hops]; rfl
  refine ⟨⟨m.ops.map (·.memory_management_control_operation), ?_, hv⟩, ?_, ?_, ?_, ?_⟩
  · intro x hx
    obtain ⟨o, ho, rfl⟩ := List.mem_map.mp hx
    split at hops
    · exact (hops o ho).op
    · rw [hops] at ho; cases ho
  · unfold DecRefPicMarking.difference_of_pic_nums_minus1
    rw [List.length_map]; exact hlen (fun x => decide (x = 1 ∨ x = 3)) rfl
  · unfold DecRefPicMarking.long_term_pic_num
    rw [List.length_map]; exact hlen (fun x => decide (x = 2)) rfl
  · unfold DecRefPicMarking.long_term_frame_idx
    rw [List.length_map]; exact hlen (fun x => decide (x = 3 ∨ x = 6)) rfl
  · unfold DecRefPicMarking.max_long_term_frame_idx_plus1
    rw [List.length_map]; exact hlen (fun x => decide (x = 4)) rfl

/-- A marking with one operation of each kind. -/
def exMarking : DecRefPicMarking :=
  { adaptive_ref_pic_marking_mode_flag := 1,
    ops := [{ memory_management_control_operation := 1, difference_of_pic_nums_minus1 := 4 },
            { memory_management_control_operation := 2, long_term_pic_num := 7 },
            { memory_management_control_operation := 3, difference_of_pic_nums_minus1 := 0, long_term_frame_idx := 2 },
            { memory_management_control_operation := 4, max_long_term_frame_idx_plus1 := 3 },
            { memory_management_control_operation := 5 },
            { memory_management_control_operation := 6, long_term_frame_idx := 1 }] }

theorem exMarking_ok : exMarking.Ok 0 := by
  constructor <;> try decide
  show ∀ o ∈ exMarking.ops, o.Ok
  intro o ho
  simp only [exMarking, List.mem_cons, List.not_mem_nil, or_false] at ho
  rcases ho with rfl | rfl | rfl | rfl | rfl | rfl <;> constructor <;> simp [ueRange]

example (nd : Bool) : runL nd (parseDecRefPicMarking 0) ⟨encDecRefPicMarking exMarking ++ [true], 0⟩ =
    .ok exMarking ⟨[true], 0⟩ :=
  (codec_decRefPicMarking 0).parse_append nd exMarking_ok _ _
example : exMarking.memory_management_control_operation = [1, 2, 3, 4, 5, 6, 0] ∧
    exMarking.difference_of_pic_nums_minus1 = [4, 0] ∧ exMarking.long_term_frame_idx = [2, 1] := by decide +kernel

/-- C33: `ParsePredWeightTable` returns `t` iff the next bits are its 7.3.3.2 encoding and it is in range; it has then
consumed exactly that encoding. -/
theorem C33_predWeightTable_exact (nd : Bool) {b : Buf} (hb : b.WF) (c cat n0 n1 : Nat) {st : Nat} (hst : st ≤ 9)
    (t : PredWeightTable) (s' : St) :
    run nd (parsePredWeightTable cat st n0 n1) ⟨b, c⟩ = .ok t s' ↔
      t.Ok cat st n0 n1 ∧ (∃ r, b.rem = encPredWeightTable t ++ r) ∧
        s' = ⟨b.adv (encPredWeightTable t).length, c⟩ :=
  (codec_predWeightTable hst).run nd hb c t s'

/-- C33: undefined behaviour never happens. -/
theorem C33_predWeightTable_safe (nd : Bool) {b : Buf} (hb : b.WF) (c cat st n0 n1 : Nat) (e : Bad) :
    run nd (parsePredWeightTable cat st n0 n1) ⟨b, c⟩ ≠ .bad e :=
  (safe_predWeightTable cat st n0 n1).run nd hb c e

/-- C33: vector lengths of a returned table: one flag per active reference picture of list 0 (and of list 1 exactly in B
slices), chroma flags exactly if ChromaArrayType is not 0, and one weight and one offset per set flag. -/
theorem C33_predWeightTable_lengths (nd : Bool) {b : Buf} (hb : b.WF) (c cat n0 n1 : Nat) {st : Nat} (hst : st ≤ 9)
    {t : PredWeightTable} {s' : St} (h : run nd (parsePredWeightTable cat st n0 n1) ⟨b, c⟩ = .ok t s') :
    (lumaFlags t.l0).length = n0 + 1 ∧
    (lumaFlags t.l1).length = (if st % 5 = 1 then n1 + 1 else 0) ∧
    (chromaFlags cat t.l0).length = (if cat ≠ 0 then n0 + 1 else 0) ∧
    (chromaFlags cat t.l1).length = (if cat ≠ 0 ∧ st % 5 = 1 then n1 + 1 else 0) ∧
    (∀ l, l = t.l0 ∨ l = t.l1 →
      (lumaWeights l).length = ((lumaFlags l).filter (fun x => decide (x = 1))).length ∧
      (lumaOffsets l).length = ((lumaFlags l).filter (fun x => decide (x = 1))).length ∧
      (chromaWeights l).length = ((chromaFlags cat l).filter (fun x => decide (x = 1))).length ∧
      (chromaOffsets l).length = ((chromaFlags cat l).filter (fun x => decide (x = 1))).length) := by
  obtain ⟨ok, -⟩ := (C33_predWeightTable_exact nd hb c cat n0 n1 hst t s').mp h
  have e0 := ok.l0_length
  have e1 := ok.l1_length
  refine ⟨by unfold lumaFlags; rw [List.length_map, e0], by unfold lumaFlags; rw [List.length_map, e1], ?_, ?_, ?_⟩
  · unfold chromaFlags
    by_cases hc : cat ≠ 0
    · rw [if_pos hc, if_pos hc, List.length_map, e0]
    · rw [if_neg hc, if_neg hc]; rfl
  · unfold chromaFlags
    by_cases hc : cat ≠ 0
    · rw [if_pos hc, List.length_map, e1]; simp [hc]
    · rw [if_neg hc, if_neg (fun h => hc h.1)]; rfl
  · intro l hl
    have hl' : ∀ w ∈ l, w.Ok cat := by
      rcases hl with rfl | rfl
      · exact ok.l0
      · exact ok.l1
    clear hl
    have hL : ∀ w ∈ l, decide (w.luma_weight_flag ≠ 0) = decide (w.luma_weight_flag = 1) := by
      intro w hw; have := (hl' w hw).luma_weight_flag; rw [decide_eq_decide]; omega
    have hC : ∀ w ∈ l, decide (w.chroma_weight_flag ≠ 0) = decide (w.chroma_weight_flag = 1) := by
      intro w hw
      have := (hl' w hw).chroma_weight_flag
      rw [decide_eq_decide]
      split at this <;> omega
    have eL : (l.filter (fun w => decide (w.luma_weight_flag ≠ 0))).length =
        ((lumaFlags l).filter (fun x => decide (x = 1))).length := by
      unfold lumaFlags; rw [List.filter_map, List.length_map, List.filter_congr hL]; rfl
    have eC : (l.filter (fun w => decide (w.chroma_weight_flag ≠ 0))).length =
        ((chromaFlags cat l).filter (fun x => decide (x = 1))).length := by
      unfold chromaFlags
      by_cases hc : cat ≠ 0
      · rw [if_pos hc, List.filter_map, List.length_map, List.filter_congr hC]; rfl
      · rw [if_neg hc]
        have : l.filter (fun w => decide (w.chroma_weight_flag ≠ 0)) = [] := by
          rw [List.filter_eq_nil_iff]
          intro w hw
          have := (hl' w hw).chroma_weight_flag
          rw [if_neg hc] at this
          simp [this]
        rw [this]; rfl
    unfold lumaWeights lumaOffsets chromaWeights chromaOffsets
    rw [List.length_map, List.length_map, List.length_map, List.length_map]
    exact ⟨eL, eL, eC, eC⟩

/-- A B slice table with 4:2:0 chroma. -/
def exTable : PredWeightTable :=
  { chroma_array_type := 1, slice_type := 1, num_ref_idx_l0_active_minus1 := 1, num_ref_idx_l1_active_minus1 := 0,
    luma_log2_weight_denom := 5, chroma_log2_weight_denom := 7,
    l0 := [{ luma_weight_flag := 1, luma_weight := -128, luma_offset := 127 },
           { chroma_weight_flag := 1, chroma_weight_0 := 1, chroma_offset_0 := -1, chroma_weight_1 := 2,
             chroma_offset_1 := -2 }],
    l1 := [{}] }

theorem exTable_ok : exTable.Ok 1 1 1 0 := by
  constructor <;> try decide
  all_goals
    intro w hw
    simp only [exTable, List.mem_cons, List.not_mem_nil, or_false] at hw
  · rcases hw with rfl | rfl <;> constructor <;> simp [seRange]
  · subst hw; constructor <;> simp

example (nd : Bool) : runL nd (parsePredWeightTable 1 1 1 0) ⟨encPredWeightTable exTable ++ [true], 0⟩ =
    .ok exTable ⟨[true], 0⟩ :=
  (codec_predWeightTable (by decide)).parse_append nd exTable_ok _ _
example : lumaWeights exTable.l0 = [-128] ∧ chromaFlags 1 exTable.l0 = [0, 1] ∧
    chromaOffsets exTable.l0 = [[-1, -2]] := by decide +kernel

end H264.Props
