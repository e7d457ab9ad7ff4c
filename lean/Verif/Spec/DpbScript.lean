import Verif.Model.DpbScript
import Verif.Spec.SplitScript

/-
Specification of the table of reference pictures (C83): the pictures of a stream, and what the table says about each.  An entry of a
list of reference pictures is a frame_num with, if it is a long-term picture, its index; a row is a line of the table
(`Dpb.Entry` and `Dpb.Row` in Model/DpbScript.lean).
-/

namespace H264.Spec
open H264.Dpb (Entry Row)

/-- A picture as its first slice describes it. -/
structure Picture where
  idr : Bool
  nal_ref_idc : Nat
  slice_type : Nat
  frame_num : Nat
  /-- the number of reference pictures in list 0 -/
  active : Nat
  /-- the modifications of list 0: modification_of_pic_nums_idc with its operand -/
  changes : Option (List (Nat × Nat))
  /-- long_term_reference_flag of an IDR picture -/
  long_term : Bool
  /-- the memory management control operations, if marking is adaptive -/
  operations : Option (List Mmco)
  deriving DecidableEq, Repr

/-- The PPS a NAL unit holds. -/
def heldPps (n : NalUnit) : Option Pps := if n.nal_unit_header.nal_unit_type = 8 then n.nal_unit_payload.pps else none

/-- The header of a slice that starts a picture. -/
def firstSlice (n : NalUnit) : Option SliceHeader :=
  if n.nal_unit_header.nal_unit_type = 1 ∨ n.nal_unit_header.nal_unit_type = 5 then
    match n.nal_unit_payload.slice_layer_without_partitioning_rbsp with
    | some y =>
      match y.slice_header with
      | some h => if h.first_mb_in_slice = 0 then some h else none
      | none => none
    | none => none
  else none

/-- The picture of a slice header under NAL unit header `n`, where `p` is the PPS last seen. -/
def pictureOf (p : Option Pps) (n : NalHeader) (h : SliceHeader) : Picture where
  idr := decide (n.nal_unit_type = 5)
  nal_ref_idc := n.nal_ref_idc
  slice_type := h.slice_type
  frame_num := h.frame_num
  active :=
    if h.num_ref_idx_active_override_flag = 1 then h.num_ref_idx_l0_active_minus1 + 1
    else match p with
      | some p => p.num_ref_idx_l0_default_active_minus1 + 1
      | none => 1
  changes :=
    match h.ref_pic_list_modification with
    | some m => if m.ref_pic_list_modification_flag_l0 = 1 then some m.ops_l0 else none
    | none => none
  long_term :=
    match h.dec_ref_pic_marking with
    | some d => decide (d.long_term_reference_flag = 1)
    | none => false
  operations :=
    match h.dec_ref_pic_marking with
    | some d => if d.adaptive_ref_pic_marking_mode_flag = 1 then some d.ops else none
    | none => none

/-- The pictures of a stream after PPS `p`. -/
def pictures : Option Pps → List NalUnit → List Picture
  | _, [] => []
  | p, n :: ns =>
    (match firstSlice n with
    | some h => [pictureOf p n.nal_unit_header h]
    | none => []) ++ pictures (heldPps n <|> p) ns

/-- The last SPS of a stream. -/
def lastSps (ns : List NalUnit) : Option SpsData := (ns.filterMap heldSps).getLast?

/-! ### What is held -/

/-- Short-term and long-term entries. -/
def shorts (d : List Entry) : List Entry := d.filter fun e => e.ltr = none
def longs (d : List Entry) : List Entry := d.filter fun e => e.ltr ≠ none

/-- The first entry with the property is changed. -/
def changeFirst (p : Entry → Bool) (f : Entry → Entry) : List Entry → List Entry
  | [] => []
  | e :: t => if p e then f e :: t else e :: changeFirst p f t

/-- One operation, as the script takes it, for a picture with this frame_num: 1 drops a short-term entry, 3 makes one a long-term entry, 4 drops
the long-term entries above an index, 5 drops everything, and 6 enters the picture itself as a long-term entry.  2, which should
drop a long-term entry, does nothing. -/
def operate (frame_num : Nat) (d : List Entry) (o : Mmco) : List Entry :=
  let named := fun e : Entry => decide (e.ltr = none ∧ e.frame_num + (o.difference_of_pic_nums_minus1 + 1) = frame_num)
  match o.memory_management_control_operation with
  | 1 => d.filter fun e => !named e
  | 3 => changeFirst named (fun e => { e with ltr := some o.long_term_frame_idx }) d
  | 4 => d.filter fun e => match e.ltr with | some i => decide (i < o.max_long_term_frame_idx_plus1) | none => true
  | 5 => []
  | 6 => (d.filter fun e => e.ltr ≠ some o.long_term_frame_idx) ++ [⟨frame_num, some o.long_term_frame_idx⟩]
  | _ => d

/-- Without the `k` oldest short-term entries. -/
def dropShorts : Nat → List Entry → List Entry
  | 0, d => d
  | _, [] => []
  | k + 1, e :: t => if e.ltr = none then dropShorts k t else e :: dropShorts (k + 1) t

/-- The picture is entered by the sliding window: no IDR picture, no operations, and a reference. -/
def Picture.slides (x : Picture) : Prop := x.idr = false ∧ x.operations = none ∧ 0 < x.nal_ref_idc

/-- What is held after a picture, if `d` was held before it and at most `M` pictures may be. -/
def heldAfter (M : Nat) (x : Picture) (d : List Entry) : List Entry :=
  if x.idr then
    if x.long_term then [⟨x.frame_num, some 0⟩] else if 0 < x.nal_ref_idc then [⟨x.frame_num, none⟩] else []
  else
    match x.operations with
    | some ops => ops.foldl (operate x.frame_num) d
    | none => if 0 < x.nal_ref_idc then dropShorts (d.length + 1 - M) (d ++ [⟨x.frame_num, none⟩]) else d

/-- What is held after pictures. -/
def heldThrough (M : Nat) (xs : List Picture) (d : List Entry) : List Entry := xs.foldl (fun d x => heldAfter M x d) d

/-- A picture is to be entered by the sliding window while more long-term entries are held than there may be pictures: however many short-term
entries are dropped, there are too many entries. -/
def Endless (M : Nat) (d : List Entry) (xs : List Picture) : Prop :=
  ∃ pre x post, xs = pre ++ x :: post ∧ x.slides ∧ M < (longs (heldThrough M pre d)).length

/-- The pictures from the last IDR picture on (all, if there is none). -/
def group (xs : List Picture) : List Picture := xs.foldl (fun g x => if x.idr then [x] else g ++ [x]) []

/-- The short-term entries of the last `M` reference pictures from the last IDR picture on. -/
def window (M : Nat) (xs : List Picture) : List Entry :=
  let refs := (group xs).filter fun x => decide (0 < x.nal_ref_idc)
  (refs.drop (refs.length - M)).map fun x => ⟨x.frame_num, none⟩

/-! ### References -/

/-- The order before modifications: short-term entries by falling frame_num, then long-term entries by rising index, entries that are
alike in the order in which they are held. -/
structure Ordered (d l : List Entry) : Prop where
  parts : l = shorts l ++ longs l
  falling : (shorts l).Pairwise fun a b => b.frame_num ≤ a.frame_num
  rising : (longs l).Pairwise fun a b => a.ltr.getD 0 ≤ b.ltr.getD 0
  stable_short : ∀ n, (shorts l).filter (fun e => e.frame_num = n) = (shorts d).filter (fun e => e.frame_num = n)
  stable_long : ∀ i, (longs l).filter (fun e => e.ltr = some i) = (longs d).filter (fun e => e.ltr = some i)

/-- The first entry with the property is moved to position `i`, if there is one; the list, and the next position. -/
def placed (p : Entry → Bool) (l : List Entry) (i : Nat) : List Entry × Nat :=
  match l.find? p with
  | none => (l, i)
  | some e => (((l.eraseP p).take i) ++ e :: ((l.eraseP p).drop i), i + 1)

/-- The modifications of a list from position `i`, where `pred` is the frame_num predicted. -/
def modified (max_frame_num : Nat) : Nat → Nat → List Entry → List (Nat × Nat) → List Entry
  | _, _, l, [] => l
  | pred, i, l, (idc, v) :: ops =>
    if idc = 2 then
      let r := placed (fun e => decide (e.ltr = some v)) l i
      modified max_frame_num pred r.2 r.1 ops
    else
      let next := (if idc = 0 then ((pred : Int) - (v + 1)) % max_frame_num else ((pred : Int) + (v + 1)) % max_frame_num).toNat
      let r := placed (fun e => decide (e.ltr = none ∧ e.frame_num = next)) l i
      modified max_frame_num next r.2 r.1 ops

/-- What a picture refers to, if `d` is held. -/
inductive Refers (max_frame_num : Nat) (x : Picture) (d : List Entry) : List Entry → Prop
  | none : ¬ ((x.slice_type = 0 ∨ x.slice_type = 1) ∧ d ≠ []) → Refers max_frame_num x d []
  | some {l : List Entry} : (x.slice_type = 0 ∨ x.slice_type = 1) → d ≠ [] → Ordered d l →
      Refers max_frame_num x d ((modified max_frame_num x.frame_num 0 l (x.changes.getD [])).take x.active)

/-! ### The table -/

/-- The type of a picture. -/
def typeName (x : Picture) : String :=
  if x.idr then "IDR"
  else match x.slice_type with
    | 0 => "P" | 1 => "B" | 2 => "I" | 3 => "SP" | 4 => "SI"
    | t => "?" ++ toString t

/-- An operation, in words; the picture it names is given by a difference to the frame_num of the picture. -/
def operationName (frame_num : Nat) (o : Mmco) : String :=
  let named := toString ((frame_num : Int) - (o.difference_of_pic_nums_minus1 + 1))
  match o.memory_management_control_operation with
  | 1 => "MMCO1:rm_STR(fn=" ++ named ++ ")"
  | 2 => "MMCO2:rm_LTR"
  | 3 => "MMCO3:STR(fn=" ++ named ++ ")->LTR[" ++ toString o.long_term_frame_idx ++ "]"
  | 4 => "MMCO4:max_ltr_idx=" ++ toString ((o.max_long_term_frame_idx_plus1 : Int) - 1)
  | 5 => "MMCO5:clear_all"
  | _ => "MMCO6:self->LTR[" ++ toString o.long_term_frame_idx ++ "]"

/-- What is done when a picture has been decoded, in words. -/
def markingName (x : Picture) : List Char :=
  if x.idr then (if x.long_term then "IDR:LTR[0]" else "IDR:STR").toList
  else match x.operations with
    | some ops => List.intercalate [';'] (ops.map fun o => (operationName x.frame_num o).toList)
    | none => (if 0 < x.nal_ref_idc then "sliding_window" else "").toList

/-- The row of a picture that is number `i`, in group `g`, number `j` in it, when `d` is held before it. -/
structure RowOf (s : SpsData) (i g j : Nat) (x : Picture) (d : List Entry) (r : Row) : Prop where
  abs_frame : r.abs_frame = i
  gop : r.gop = g
  gop_frame : r.gop_frame = j
  type : r.type = (typeName x).toList
  frame_num : r.frame_num = x.frame_num
  nal_ref_idc : r.nal_ref_idc = x.nal_ref_idc
  ref : r.ref = decide (0 < x.nal_ref_idc)
  before : r.dpb_before_decode = d
  refs : Refers (2 ^ (s.log2_max_frame_num_minus4 + 4)) x d r.refs_used
  mmco : r.mmco = markingName x
  after : r.dpb_after_mmco = heldAfter s.max_num_ref_frames x d

/-- The long-term entries leave room for the picture to be entered by the sliding window. -/
def Room (s : SpsData) (x : Picture) (d : List Entry) : Prop := x.slides → (longs d).length ≤ s.max_num_ref_frames

/-- The rows of pictures of which the first is number `i`, and would be number `j` of group `g` if it is no IDR picture, when `d` is held:
an IDR picture starts a group (unless it is the first picture) and empties what is held. -/
inductive Table (s : SpsData) : Nat → Nat → Nat → List Entry → List Picture → List Row → Prop
  | nil (i g j : Nat) (d : List Entry) : Table s i g j d [] []
  | idr {i g j : Nat} {d : List Entry} {x : Picture} {xs : List Picture} {r : Row} {rs : List Row} : x.idr = true →
      RowOf s i (if i = 0 then g else g + 1) 0 x [] r →
      Table s (i + 1) (if i = 0 then g else g + 1) 1 (heldAfter s.max_num_ref_frames x []) xs rs → Table s i g j d (x :: xs) (r :: rs)
  | other {i g j : Nat} {d : List Entry} {x : Picture} {xs : List Picture} {r : Row} {rs : List Row} : x.idr = false → Room s x d →
      RowOf s i g j x d r → Table s (i + 1) g (j + 1) (heldAfter s.max_num_ref_frames x d) xs rs → Table s i g j d (x :: xs) (r :: rs)

end H264.Spec
