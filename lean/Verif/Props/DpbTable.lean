import Verif.Spec.Csv
import Verif.Props.DpbScript

/-! # C83: the text of the table of reference pictures -/

namespace H264.Props

open H264 H264.Spec H264.Shown H264.Script
open H264.Dpb (Entry Row dpbArgs Known)

/-- No comma and no line break. -/
def Cell (l : List Char) : Prop := ',' ∉ l ∧ '\n' ∉ l

theorem Cell.append {a b : List Char} (ha : Cell a) (hb : Cell b) : Cell (a ++ b) :=
  ⟨by rw [List.mem_append]; exact fun h => h.elim ha.1 hb.1, by rw [List.mem_append]; exact fun h => h.elim ha.2 hb.2⟩

instance (l : List Char) : Decidable (Cell l) := inferInstanceAs (Decidable (_ ∧ _))

theorem cell_nat (v : Nat) : Cell (toString v).toList := by
  have h := (number_nat v).1
  have hd : ∀ c ∈ (toString v).toList, isDec c = true := fun c hc => by
    rw [← h] at hc
    exact List.all_eq_true.mp List.all_takeWhile c hc
  exact ⟨fun k => absurd (hd _ k) (by decide), fun k => absurd (hd _ k) (by decide)⟩

theorem cell_int : ∀ v : Int, Cell (toString v).toList
  | .ofNat n => cell_nat n
  | .negSucc n => by
    have : (toString (Int.negSucc n)).toList = "-".toList ++ (toString (n + 1)).toList := by
      rw [← String.toList_append]
      rfl
    rw [this]
    exact Cell.append (by decide) (cell_nat _)

theorem cell_join : ∀ {ps : List (List Char)}, (∀ p ∈ ps, Cell p) → Cell (Dpb.joinSemi ps)
  | [], _ => by decide
  | [p], h => h p (List.mem_cons_self ..)
  | p :: q :: r, h => by
    rw [Dpb.joinSemi]
    exact (h p (List.mem_cons_self ..)).append (Cell.append (a := [';']) (by decide) (cell_join fun x hx => h x (List.mem_cons_of_mem _ hx)))

theorem cell_entry (e : Entry) : Cell (Dpb.entryStr e) := by
  unfold Dpb.entryStr
  split
  · simp only [String.toList_append]
    exact (((Cell.append (by decide) (cell_nat _)).append (by decide)).append (cell_nat _)).append (by decide)
  · simp only [String.toList_append]
    exact (Cell.append (by decide) (cell_nat _)).append (by decide)

theorem cell_entries (es : List Entry) : Cell (Dpb.joinSemi (es.map Dpb.entryStr)) :=
  cell_join fun p hp => by
    obtain ⟨e, _, rfl⟩ := List.mem_map.mp hp
    exact cell_entry e

theorem cell_parts (frame_num : Nat) : ∀ (ops ds ls ms : List Nat) (r : List (List Char)), Dpb.mmcoParts frame_num ops ds ls ms = .ok r →
    ∀ p ∈ r, Cell p
  | [], ds, ls, ms, r, h => by
    rw [Dpb.mmcoParts] at h
    cases h
    simp
  | op :: ops, ds, ls, ms, r, h => by
    have key : ∀ {ds ls ms : List Nat} {x : List Char} {r : List (List Char)}, Cell x →
        (do let r ← Dpb.mmcoParts frame_num ops ds ls ms; pure (x :: r) : Except Dpb.Err (List (List Char))) = .ok r → ∀ p ∈ r, Cell p := by
      intro ds ls ms x r hx h
      cases hm : Dpb.mmcoParts frame_num ops ds ls ms with
      | error e => rw [hm] at h; cases h
      | ok r' =>
        rw [hm] at h
        cases h
        intro p hp
        rcases List.mem_cons.mp hp with rfl | hp
        · exact hx
        · exact cell_parts frame_num ops ds ls ms r' hm p hp
    rw [Dpb.mmcoParts.eq_def] at h
    dsimp only at h
    split at h
    · cases h; simp
    split at h
    · split at h
      · cases h
      · refine key ?_ h
        simp only [String.toList_append]
        exact (Cell.append (by decide) (cell_int _)).append (by decide)
    split at h
    · exact key (by decide) h
    split at h
    · split at h
      · cases h
      · split at h
        · cases h
        · refine key ?_ h
          simp only [String.toList_append]
          exact (((Cell.append (by decide) (cell_int _)).append (by decide)).append (cell_nat _)).append (by decide)
    split at h
    · split at h
      · cases h
      · refine key ?_ h
        simp only [String.toList_append]
        exact Cell.append (by decide) (cell_int _)
    split at h
    · exact key (by decide) h
    split at h
    · split at h
      · cases h
      · refine key ?_ h
        simp only [String.toList_append]
        exact (Cell.append (by decide) (cell_nat _)).append (by decide)
    · exact cell_parts frame_num ops ds ls ms r h

theorem cell_mmco {f : Dpb.Frame} {m : List Char} (h : Dpb.mmcoStr f = .ok m) : Cell m := by
  unfold Dpb.mmcoStr at h
  split at h
  · cases h
    split <;> decide
  split at h
  · cases h
    split <;> decide
  · cases hm : Dpb.mmcoParts f.frame_num f.mmco f.diff_pic_nums f.long_term_frame_idx f.max_long_term_frame_idx_plus1 with
    | error e => rw [hm] at h; cases h
    | ok r =>
      rw [hm] at h
      cases h
      exact cell_join (cell_parts _ _ _ _ _ _ hm)

theorem cell_type (f : Dpb.Frame) : Cell (Dpb.frameType f) := by
  unfold Dpb.frameType
  split
  · decide
  · split <;> try decide
    rw [String.toList_append]
    exact Cell.append (by decide) (cell_nat _)

theorem exBind {ε α β : Type} {x : Except ε α} {f : α → Except ε β} {r : β} (h : (x >>= f) = .ok r) : ∃ y, x = .ok y ∧ f y = .ok r := by
  cases x with
  | error e => cases h
  | ok y => exact ⟨y, rfl, h⟩

theorem simulate_cells (s : Dpb.Sps) : ∀ (fs : List Dpb.Frame) (a g k : Nat) (dpb : List Entry) (rows : List Row),
    Dpb.simulate s a g k dpb fs = .ok rows → ∀ r ∈ rows, Cell r.type ∧ Cell r.mmco
  | [], a, g, k, dpb, rows, h => by
    rw [Dpb.simulate] at h
    cases h
    simp
  | f :: fs, a, g, k, dpb, rows, h => by
    rw [Dpb.simulate] at h
    obtain ⟨refs, -, h⟩ := exBind h
    obtain ⟨m, h2, h⟩ := exBind h
    obtain ⟨after, -, h⟩ := exBind h
    obtain ⟨rs, h4, h⟩ := exBind h
    cases h
    intro r hr
    rcases List.mem_cons.mp hr with rfl | hr
    · exact ⟨cell_type f, cell_mmco h2⟩
    · exact simulate_cells s fs _ _ _ _ rs h4 r hr

/-! ### Splitting -/

theorem split_one {d : Char} : ∀ {w : List Char}, d ∉ w → splitAtChar d w = [w]
  | [], _ => rfl
  | c :: w, h => by
    rw [splitAtChar, if_neg (fun e : c = d => h (by rw [e]; exact List.mem_cons_self ..)), split_one (fun k => h (List.mem_cons_of_mem _ k))]

theorem split_cons {d : Char} : ∀ {w : List Char} (r : List Char), d ∉ w → splitAtChar d (w ++ d :: r) = w :: splitAtChar d r
  | [], r, _ => by rw [List.nil_append, splitAtChar, if_pos rfl]
  | c :: w, r, h => by
    rw [List.cons_append, splitAtChar, if_neg (fun e : c = d => h (by rw [e]; exact List.mem_cons_self ..)), split_cons r (fun k => h (List.mem_cons_of_mem _ k))]

def joinComma : List (List Char) → List Char
  | [] => []
  | [p] => p
  | p :: q :: r => p ++ (',' :: joinComma (q :: r))

theorem split_joinComma : ∀ {ps : List (List Char)}, ps ≠ [] → (∀ p ∈ ps, Cell p) → splitAtChar ',' (joinComma ps) = ps
  | [], h, _ => absurd rfl h
  | [p], _, h => split_one (h p (List.mem_cons_self ..)).1
  | p :: q :: r, _, h => by
    rw [joinComma, split_cons _ (h p (List.mem_cons_self ..)).1, split_joinComma (by simp) (fun x hx => h x (List.mem_cons_of_mem _ hx))]

theorem joinComma_line : ∀ {ps : List (List Char)}, (∀ p ∈ ps, Cell p) → '\n' ∉ joinComma ps
  | [], _ => by simp [joinComma]
  | [p], h => (h p (List.mem_cons_self ..)).2
  | p :: q :: r, h => by
    have := joinComma_line (ps := q :: r) (fun x hx => h x (List.mem_cons_of_mem _ hx))
    rw [joinComma, List.mem_append, List.mem_cons]
    rintro (k | k | k)
    · exact (h p (List.mem_cons_self ..)).2 k
    · cases k
    · exact this k

theorem split_lines : ∀ {lines : List (List Char)}, (∀ l ∈ lines, '\n' ∉ l) → splitAtChar '\n' (lines.flatMap (· ++ ['\n'])) = lines ++ [[]]
  | [], _ => rfl
  | l :: ls, h => by
    rw [List.flatMap_cons, List.append_assoc, List.singleton_append, split_cons _ (h l (List.mem_cons_self ..)),
      split_lines (fun x hx => h x (List.mem_cons_of_mem _ hx))]
    rfl

/-- The cells of a row, as the columns are named. -/
def rowCells (r : Row) : List (List Char) :=
  [(toString r.abs_frame).toList, (toString r.gop).toList, (toString r.gop_frame).toList, r.type, (toString r.frame_num).toList,
    (toString r.nal_ref_idc).toList, if r.ref then ['Y'] else ['N'], Dpb.joinSemi (r.refs_used.map Dpb.entryStr),
    Dpb.joinSemi (r.dpb_before_decode.map Dpb.entryStr), r.mmco, Dpb.joinSemi (r.dpb_after_mmco.map Dpb.entryStr)]

theorem rowText_cells (r : Row) : Dpb.rowText r = joinComma (rowCells r) ++ ['\n'] := by
  unfold Dpb.rowText rowCells
  cases r.ref <;> simp [joinComma, String.toList_append]

theorem rowCells_ok {r : Row} (h : Cell r.type ∧ Cell r.mmco) : ∀ p ∈ rowCells r, Cell p := by
  intro p hp
  unfold rowCells at hp
  simp only [List.mem_cons, List.not_mem_nil, or_false] at hp
  rcases hp with rfl | rfl | rfl | rfl | rfl | rfl | rfl | rfl | rfl | rfl | rfl
  · exact cell_nat _
  · exact cell_nat _
  · exact cell_nat _
  · exact h.1
  · exact cell_nat _
  · exact cell_nat _
  · split <;> decide
  · exact cell_entries _
  · exact cell_entries _
  · exact h.2
  · exact cell_entries _

/-- C83: what the script writes is a table: a line with the names of the columns, and a line of 11 cells for each picture, whatever the
stream. -/
theorem C83_text {nd : Bool} {data : List UInt8} {rows : List Row} (h : Dpb.main nd data = .val (.table rows)) :
    csvRows (Dpb.tableText rows) = ["abs_frame", "gop", "gop_frame", "type", "frame_num", "nal_ref_idc", "ref", "refs_used", "dpb_before_decode",
      "mmco", "dpb_after_mmco"].map String.toList :: rows.map rowCells := by
  have hc : ∀ r ∈ rows, Cell r.type ∧ Cell r.mmco := by
    unfold Dpb.main at h
    cases h1 : toolMain nd dpbArgs data with
    | bad e => rw [h1] at h; cases h
    | val x =>
      rw [h1, Res.val_bind] at h
      obtain ⟨out, code⟩ := x
      dsimp only at h
      split at h
      · cases h
      · split at h
        · next rs h2 =>
          cases h
          unfold Dpb.dpbWith at h2
          cases h3 : Dpb.parseFrames out with
          | error e => rw [h3] at h2; cases h2
          | ok y =>
            rw [h3] at h2
            obtain ⟨sps, frames⟩ := y
            cases sps with
            | none => cases h2
            | some s => exact simulate_cells s frames 0 0 0 [] rows h2
        · cases h
  have e : Dpb.tableText rows = ((joinComma (["abs_frame", "gop", "gop_frame", "type", "frame_num", "nal_ref_idc", "ref", "refs_used",
      "dpb_before_decode", "mmco", "dpb_after_mmco"].map String.toList)) :: rows.map fun r => joinComma (rowCells r)).flatMap (· ++ ['\n']) := by
    unfold Dpb.tableText
    have hh : "abs_frame,gop,gop_frame,type,frame_num,nal_ref_idc,ref,refs_used,dpb_before_decode,mmco,dpb_after_mmco\n".toList =
        joinComma (["abs_frame", "gop", "gop_frame", "type", "frame_num", "nal_ref_idc", "ref", "refs_used", "dpb_before_decode", "mmco",
          "dpb_after_mmco"].map String.toList) ++ ['\n'] := by decide +kernel
    have hr : rows.flatMap Dpb.rowText = rows.flatMap fun r => joinComma (rowCells r) ++ ['\n'] := by
      rw [show Dpb.rowText = fun r => joinComma (rowCells r) ++ ['\n'] from funext rowText_cells]
    rw [List.flatMap_cons, List.flatMap_map, hh, hr]
  unfold csvRows
  rw [e, split_lines ?_, List.dropLast_concat, List.map_cons, List.map_map]
  · refine congrArg₂ List.cons ?_ (List.map_congr_left fun r hr => ?_)
    · exact split_joinComma (by simp) (by decide)
    · exact split_joinComma (by simp [rowCells]) (rowCells_ok (hc r hr))
  · intro l hl
    rcases List.mem_cons.mp hl with rfl | hl
    · exact joinComma_line (by decide)
    · obtain ⟨r, hr, rfl⟩ := List.mem_map.mp hl
      exact joinComma_line (rowCells_ok (hc r hr))

/-- The second line of the table of a stream of two pictures. -/
example (nd : Bool) : ∃ rows, Dpb.main nd (dpbStream [dpbSpsNal 2, dpbPpsNal 0 2, dpbIdr 1, dpbPic 2 0 1 none (some [(2, 0)])]) = .val (.table rows) ∧
    (Dpb.tableText rows).drop 144 = "1,0,1,P,1,2,Y,fn=0/LTR[0],fn=0/LTR[0],sliding_window,fn=0/LTR[0];fn=1/STR\n".toList ∧
    (csvRows (Dpb.tableText rows)).map List.length = [11, 11, 11] := by
  have h : Dpb.main nd (dpbStream [dpbSpsNal 2, dpbPpsNal 0 2, dpbIdr 1, dpbPic 2 0 1 none (some [(2, 0)])]) =
    .val (.table [
      { abs_frame := 0, gop := 0, gop_frame := 0, type := "IDR".toList, frame_num := 0, nal_ref_idc := 3, ref := true, refs_used := [],
        dpb_before_decode := [], mmco := "IDR:LTR[0]".toList, dpb_after_mmco := [⟨0, some 0⟩] },
      { abs_frame := 1, gop := 0, gop_frame := 1, type := "P".toList, frame_num := 1, nal_ref_idc := 2, ref := true,
        refs_used := [⟨0, some 0⟩], dpb_before_decode := [⟨0, some 0⟩], mmco := "sliding_window".toList,
        dpb_after_mmco := [⟨0, some 0⟩, ⟨1, none⟩] }]) := by
    cases nd <;> exact of_check (by decide +kernel) (by decide +kernel)
  exact ⟨_, h, by decide +kernel, by decide +kernel⟩

/-! ### The text says which rows there are -/

theorem nat_inj {v w : Nat} (h : (toString v).toList = (toString w).toList) : v = w := by
  rw [← (number_nat v).2.1, h, (number_nat w).2.1]

/-- A number ends where a character follows that is not a digit. -/
theorem nat_inj_before {v w : Nat} {c d : Char} {x y : List Char} (hc : isDec c = false) (hd : isDec d = false)
    (h : (toString v).toList ++ c :: x = (toString w).toList ++ d :: y) : v = w ∧ c :: x = d :: y := by
  have tk : ∀ (v : Nat) (c : Char) (x : List Char), isDec c = false → ((toString v).toList ++ c :: x).takeWhile isDec = (toString v).toList := by
    intro v c x hc
    have ha : ∀ a ∈ (toString v).toList, isDec a = true := fun a ha => by
      rw [← (number_nat v).1] at ha
      exact List.all_eq_true.mp List.all_takeWhile a ha
    rw [List.takeWhile_append_of_pos ha, List.takeWhile_cons_of_neg (by simp [hc]), List.append_nil]
  have e := congrArg (List.takeWhile isDec) h
  rw [tk v c x hc, tk w d y hd] at e
  refine ⟨nat_inj e, ?_⟩
  rw [e] at h
  exact List.append_cancel_left h

theorem entryStr_inj {a b : Entry} (h : Dpb.entryStr a = Dpb.entryStr b) : a = b := by
  obtain ⟨f, l⟩ := a
  obtain ⟨g, m⟩ := b
  have hs : ∀ n : Nat, Dpb.entryStr ⟨n, none⟩ = "fn=".toList ++ ((toString n).toList ++ '/' :: "STR".toList) := fun n => by
    simp [Dpb.entryStr, String.toList_append]
  have hl : ∀ n k : Nat, Dpb.entryStr ⟨n, some k⟩ = "fn=".toList ++ ((toString n).toList ++ '/' :: ("LTR[".toList ++ ((toString k).toList ++ ']' :: []))) :=
    fun n k => by simp [Dpb.entryStr, String.toList_append]
  cases l with
  | none =>
    cases m with
    | none =>
      rw [hs, hs] at h
      obtain ⟨rfl, -⟩ := nat_inj_before (by decide) (by decide) (List.append_cancel_left h)
      rfl
    | some k =>
      rw [hs, hl] at h
      exact absurd (nat_inj_before (by decide) (by decide) (List.append_cancel_left h)).2 (by simp)
  | some j =>
    cases m with
    | none =>
      rw [hs, hl] at h
      exact absurd (nat_inj_before (by decide) (by decide) (List.append_cancel_left h)).2 (by simp)
    | some k =>
      rw [hl, hl] at h
      obtain ⟨rfl, e⟩ := nat_inj_before (by decide) (by decide) (List.append_cancel_left h)
      obtain ⟨rfl, -⟩ := nat_inj_before (by decide) (by decide) (List.append_cancel_left (List.cons.inj e).2)
      rfl

theorem entryStr_semi (e : Entry) : ';' ∉ Dpb.entryStr e ∧ Dpb.entryStr e ≠ [] := by
  have hn : ∀ v : Nat, ';' ∉ (toString v).toList := fun v k => by
    rw [← (number_nat v).1] at k
    exact absurd (List.all_eq_true.mp List.all_takeWhile _ k) (by decide)
  unfold Dpb.entryStr
  split
  · simp only [String.toList_append, List.mem_append, not_or]
    exact ⟨⟨⟨⟨⟨by decide, hn _⟩, by decide⟩, hn _⟩, by decide⟩, by simp⟩
  · simp only [String.toList_append, List.mem_append, not_or]
    exact ⟨⟨⟨by decide, hn _⟩, by decide⟩, by simp⟩

theorem split_joinSemi : ∀ {ps : List (List Char)}, ps ≠ [] → (∀ p ∈ ps, ';' ∉ p) → splitAtChar ';' (Dpb.joinSemi ps) = ps
  | [], h, _ => absurd rfl h
  | [p], _, h => split_one (h p (List.mem_cons_self ..))
  | p :: q :: r, _, h => by
    rw [Dpb.joinSemi, split_cons _ (h p (List.mem_cons_self ..)), split_joinSemi (by simp) (fun x hx => h x (List.mem_cons_of_mem _ hx))]

theorem entries_inj {us bs : List Entry} (h : Dpb.joinSemi (us.map Dpb.entryStr) = Dpb.joinSemi (bs.map Dpb.entryStr)) : us = bs := by
  have hne : ∀ {es : List Entry}, es ≠ [] → Dpb.joinSemi (es.map Dpb.entryStr) ≠ [] := by
    intro es he
    match es, he with
    | [e], _ => exact (entryStr_semi e).2
    | e :: f :: r, _ =>
      rw [List.map_cons, List.map_cons, Dpb.joinSemi]
      simp
  have hm : ∀ es : List Entry, ∀ p ∈ es.map Dpb.entryStr, ';' ∉ p := by
    intro es p hp
    obtain ⟨e, -, rfl⟩ := List.mem_map.mp hp
    exact (entryStr_semi e).1
  by_cases ha : us = []
  · by_cases hb : bs = []
    · rw [ha, hb]
    · rw [ha] at h
      exact absurd h.symm (hne hb)
  · by_cases hb : bs = []
    · rw [hb] at h
      exact absurd h (hne ha)
    · have e := congrArg (splitAtChar ';') h
      rw [split_joinSemi (by simpa using ha) (hm us), split_joinSemi (by simpa using hb) (hm bs)] at e
      exact List.map_injective_iff.mpr (fun _ _ k => entryStr_inj k) e

theorem rowCells_inj {a b : Row} (h : rowCells a = rowCells b) : a = b := by
  obtain ⟨a1, a2, a3, a4, a5, a6, a7, a8, a9, a10, a11⟩ := a
  obtain ⟨b1, b2, b3, b4, b5, b6, b7, b8, b9, b10, b11⟩ := b
  unfold rowCells at h
  dsimp only at h
  simp only [List.cons.injEq, and_true] at h
  obtain ⟨h1, h2, h3, rfl, h5, h6, h7, h8, h9, rfl, h11⟩ := h
  cases nat_inj h1
  cases nat_inj h2
  cases nat_inj h3
  cases nat_inj h5
  cases nat_inj h6
  cases entries_inj h8
  cases entries_inj h9
  cases entries_inj h11
  have : a7 = b7 := by
    cases a7 <;> cases b7 <;> first | rfl | simp at h7
  rw [this]

/-- C83: the text says everything the table says: two streams with the same text have the same rows. -/
theorem C83_text_same {nd nd' : Bool} {data data' : List UInt8} {rows rows' : List Row} (h : Dpb.main nd data = .val (.table rows))
    (h' : Dpb.main nd' data' = .val (.table rows')) : Dpb.tableText rows = Dpb.tableText rows' ↔ rows = rows' := by
  refine ⟨fun e => ?_, fun e => by rw [e]⟩
  have := C83_text h
  rw [e, C83_text h'] at this
  exact (List.map_injective_iff.mpr (fun _ _ k => rowCells_inj k) (List.cons.inj this).2).symm

/-- An IDR picture that stays for long and one that does not: different rows, so different texts. -/
example (nd : Bool) : ∃ rows rows', Dpb.main nd (dpbStream [dpbSpsNal 2, dpbPpsNal 0 2, dpbIdr 1]) = .val (.table rows) ∧
    Dpb.main nd (dpbStream [dpbSpsNal 2, dpbPpsNal 0 2, dpbIdr 0]) = .val (.table rows') ∧ Dpb.tableText rows ≠ Dpb.tableText rows' := by
  have h : Dpb.main nd (dpbStream [dpbSpsNal 2, dpbPpsNal 0 2, dpbIdr 1]) = .val (.table [
      { abs_frame := 0, gop := 0, gop_frame := 0, type := "IDR".toList, frame_num := 0, nal_ref_idc := 3, ref := true, refs_used := [],
        dpb_before_decode := [], mmco := "IDR:LTR[0]".toList, dpb_after_mmco := [⟨0, some 0⟩] }]) := by
    cases nd <;> exact of_check (by decide +kernel) (by decide +kernel)
  have h' : Dpb.main nd (dpbStream [dpbSpsNal 2, dpbPpsNal 0 2, dpbIdr 0]) = .val (.table [
      { abs_frame := 0, gop := 0, gop_frame := 0, type := "IDR".toList, frame_num := 0, nal_ref_idc := 3, ref := true, refs_used := [],
        dpb_before_decode := [], mmco := "IDR:STR".toList, dpb_after_mmco := [⟨0, none⟩] }]) := by
    cases nd <;> exact of_check (by decide +kernel) (by decide +kernel)
  exact ⟨_, _, h, h', fun e => absurd ((C83_text_same h h').mp e) (by decide +kernel)⟩

end H264.Props
