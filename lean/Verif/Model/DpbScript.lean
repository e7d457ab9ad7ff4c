import Verif.Model.SplitScript

/-
Model of the script that shows which reference pictures are held (tools/h264nal-dpb_parse.py).  It runs the tool, reads what it
wrote with regular expressions, and simulates the marking of reference pictures.

Simplifications: the command line of the script, the messages on `stderr` and failures of the file system are not modelled.  What
is written before an exception is raised is left out.  The member `abs_frame` of the entries, which is never read, is left out.
Positions in lists of operands (`diff_idx` and so on) are modelled by what is left of the lists.
-/

namespace H264.Dpb
open H264.Script

/-- How a run can end irregularly: the exceptions, and a loop that never ends. -/
inductive Err where
  /-- `None.group` -/
  | attributeError
  /-- `int` of something else than a number -/
  | valueError
  /-- a list of operands that is too short -/
  | indexError
  /-- a member of `sps` that was never set -/
  | keyError
  | loops
  deriving DecidableEq, Repr

/-- `sps` (h264nal-dpb_parse.py:32, 42-52): the three members are set together. -/
structure Sps where
  log2_max_frame_num_minus4 : Nat
  max_num_ref_frames : Nat
  pic_order_cnt_type : Nat
  deriving DecidableEq, Repr

/-- `frame` (h264nal-dpb_parse.py:73-142).  Lists that are not set are empty; `long_term_reference_flag` is 0 if it is not set. -/
structure Frame where
  nal_type : Nat
  slice_type : Nat
  frame_num : Nat
  nal_ref_idc : Nat
  num_ref_idx_l0_active : Nat
  long_term_reference_flag : Nat
  mmco : List Nat
  diff_pic_nums : List Nat
  long_term_frame_idx : List Nat
  max_long_term_frame_idx_plus1 : List Nat
  rplm_l0 : Nat
  rplm_mod_idc : List Nat
  rplm_abs_diff : List Nat
  rplm_lt_pic_num : List Nat
  deriving DecidableEq, Repr

/-- `frame["is_idr"]` (h264nal-dpb_parse.py:78) -/
def Frame.isIdr (f : Frame) : Bool := f.nal_type == 5
/-- `frame["is_ref"]` (h264nal-dpb_parse.py:79) -/
def Frame.isRef (f : Frame) : Bool := decide (f.nal_ref_idc > 0)

/-! ### Reading the text -/

/-- `re.search(r"lit([^}]*)\}", t)`: the group of the first match. -/
def searchBraces (lit : List Char) : List Char → Option (List Char)
  | [] => none
  | c :: t =>
    if lit.isPrefixOf (c :: t) && ((c :: t).drop lit.length).contains '}' then
      some (((c :: t).drop lit.length).takeWhile (· ≠ '}'))
    else searchBraces lit t

/-- `re.search(r"name: (\d+)", t)` and `int` of the group. -/
def field (name : String) (t : List Char) : Option Nat := (search (name.toList ++ ": ".toList) isDec t).map (number 10)
/-- The same where the script uses the match without a test. -/
def need (name : String) (t : List Char) : Except Err Nat :=
  match field name t with
  | some v => .ok v
  | none => .error .attributeError

/-- `x.split()`: the word at the front and the other words. -/
def splitWords : List Char → List Char × List (List Char)
  | [] => ([], [])
  | c :: t =>
    let r := splitWords t
    if c = ' ' ∨ c = '\n' then ([], if r.1 = [] then r.2 else r.1 :: r.2) else (c :: r.1, r.2)

/-- `int(x)` -/
def toInt (w : List Char) : Except Err Nat := if w.all isDec then .ok (number 10 w) else .error .valueError
/-- `[int(x) for x in ws]` -/
def toInts : List (List Char) → Except Err (List Nat)
  | [] => .ok []
  | w :: ws => do
    let v ← toInt w
    let vs ← toInts ws
    pure (v :: vs)

/-- `[int(x) for x in m.group(1).split()] if m else []` for `m = re.search(r"name \{ ([^}]*)\}", t)`
(h264nal-dpb_parse.py:97-118, 125-142); testing `m.group(1).strip()` makes no difference. -/
def listOf (name : String) (t : List Char) : Except Err (List Nat) :=
  match searchBraces (name.toList ++ " { ".toList) t with
  | none => .ok []
  | some g =>
    let r := splitWords g
    toInts (if r.1 = [] then r.2 else r.1 :: r.2)

/-- h264nal-dpb_parse.py:43-51 -/
def readSps (t : List Char) : Except Err Sps := do
  let log2_max_frame_num_minus4 ← need "log2_max_frame_num_minus4" t
  let max_num_ref_frames ← need "max_num_ref_frames" t
  let pic_order_cnt_type ← need "pic_order_cnt_type" t
  pure { log2_max_frame_num_minus4, max_num_ref_frames, pic_order_cnt_type }

/-- h264nal-dpb_parse.py:82-89 -/
def readActive (pps : Option Nat) (t : List Char) : Except Err Nat :=
  if field "num_ref_idx_active_override_flag" t = some 1 then do
    let v ← need "num_ref_idx_l0_active_minus1" t
    pure (v + 1)
  else .ok (pps.getD 0 + 1)

/-- h264nal-dpb_parse.py:95-120: `mmco`, `diff_pic_nums`, `long_term_frame_idx`, `max_long_term_frame_idx_plus1`. -/
def readMmco (t : List Char) : Except Err (List Nat × List Nat × List Nat × List Nat) :=
  if field "adaptive_ref_pic_marking_mode_flag" t = some 1 then do
    let a ← listOf "memory_management_control_operation" t
    let b ← listOf "difference_of_pic_nums_minus1" t
    let c ← listOf "long_term_frame_idx" t
    let d ← listOf "max_long_term_frame_idx_plus1" t
    pure (a, b, c, d)
  else .ok ([], [], [], [])

/-- h264nal-dpb_parse.py:122-142: `rplm_mod_idc`, `rplm_abs_diff`, `rplm_lt_pic_num`. -/
def readRplm (t : List Char) : Except Err (List Nat × List Nat × List Nat) :=
  if (field "ref_pic_list_modification_flag_l0" t).getD 0 ≠ 0 then do
    let a ← listOf "modification_of_pic_nums_idc" t
    let b ← listOf "abs_diff_pic_num_minus1" t
    let c ← listOf "long_term_pic_num" t
    pure (a, b, c)
  else .ok ([], [], [])

/-- h264nal-dpb_parse.py:69-144: the frame of a slice with first_mb_in_slice = 0. -/
def readFrame (pps : Option Nat) (nal_type : Nat) (t : List Char) : Except Err Frame := do
  let slice_type ← need "slice_type" t
  let frame_num ← need "frame_num" t
  let nal_ref_idc ← need "nal_ref_idc" t
  let num_ref_idx_l0_active ← readActive pps t
  let long_term_reference_flag := if nal_type = 5 then (field "long_term_reference_flag" t).getD 0 else 0
  let (mmco, diff_pic_nums, long_term_frame_idx, max_long_term_frame_idx_plus1) ← readMmco t
  let rplm_l0 := (field "ref_pic_list_modification_flag_l0" t).getD 0
  let (rplm_mod_idc, rplm_abs_diff, rplm_lt_pic_num) ← readRplm t
  pure { nal_type, slice_type, frame_num, nal_ref_idc, num_ref_idx_l0_active, long_term_reference_flag, mmco, diff_pic_nums,
         long_term_frame_idx, max_long_term_frame_idx_plus1, rplm_l0, rplm_mod_idc, rplm_abs_diff, rplm_lt_pic_num }

/-- The loop of `parse_frames` (h264nal-dpb_parse.py:36-146): the last SPS, and the frames in order; `pps` is what the last PPS said. -/
def readNals (sps : Option Sps) (pps : Option Nat) : List (List Char) → Except Err (Option Sps × List Frame)
  | [] => .ok (sps, [])
  | t :: ts =>
    match field "nal_unit_type" t with
    | none => readNals sps pps ts
    | some nal_type =>
      if nal_type = 7 then do
        let s ← readSps t
        readNals (some s) pps ts
      else if nal_type = 8 then do
        let p ← need "num_ref_idx_l0_default_active_minus1" t
        readNals sps (some p) ts
      else if nal_type ≠ 1 ∧ nal_type ≠ 5 then readNals sps pps ts
      else if field "first_mb_in_slice" t ≠ some 0 then readNals sps pps ts
      else do
        let f ← readFrame pps nal_type t
        let (s, fs) ← readNals sps pps ts
        pure (s, f :: fs)

/-- `parse_frames` (h264nal-dpb_parse.py:30-146). -/
def parseFrames (content : List Char) : Except Err (Option Sps × List Frame) :=
  readNals none none (splitGo "nal_unit {".toList 0 true content).2

/-! ### The simulation -/

/-- An entry of `dpb`: `ltr_idx` if `is_ltr` (h264nal-dpb_parse.py:319-335). -/
structure Entry where
  frame_num : Nat
  ltr : Option Nat
  deriving DecidableEq, Repr

/-- Inserts an element before the first one it need not come after. -/
def insertBy (le : Entry → Entry → Bool) (x : Entry) : List Entry → List Entry
  | [] => [x]
  | y :: t => if le x y then x :: y :: t else y :: insertBy le x t
/-- `sorted`, which is stable. -/
def sortBy (le : Entry → Entry → Bool) (l : List Entry) : List Entry := l.foldr (insertBy le) []

/-- `build_ref_pic_list0` (h264nal-dpb_parse.py:172-182). -/
def buildRefPicList0 (dpb : List Entry) : List Entry :=
  sortBy (fun a b => decide (b.frame_num ≤ a.frame_num)) (dpb.filter fun e => e.ltr = none) ++
  sortBy (fun a b => decide (a.ltr.getD 0 ≤ b.ltr.getD 0)) (dpb.filter fun e => e.ltr ≠ none)

/-- Moves the first entry with the property to `idx`; the list and the next index (h264nal-dpb_parse.py:210-218, 222-230). -/
def moveTo (p : Entry → Bool) (l : List Entry) (idx : Nat) : List Entry × Nat :=
  match l.findIdx? p with
  | none => (l, idx)
  | some i => (((l.eraseIdx i).take idx) ++ (l[i]?.toList ++ (l.eraseIdx i).drop idx), idx + 1)

/-- The loop of `apply_rplm` (h264nal-dpb_parse.py:199-230). -/
def rplmLoop (max_frame_num : Nat) : List Nat → List Nat → List Nat → Nat → Nat → List Entry → Except Err (List Entry)
  | [], _, _, _, _, l => .ok l
  | idc :: idcs, ds, ls, pred, idx, l =>
    if idc = 3 then .ok l
    else if idc = 0 ∨ idc = 1 then
      match ds with
      | [] => .error .indexError
      | d :: ds =>
        let pred := (if idc = 0 then ((pred : Int) - (d + 1)) % max_frame_num else ((pred : Int) + (d + 1)) % max_frame_num).toNat
        let r := moveTo (fun e => decide (e.ltr = none ∧ e.frame_num = pred)) l idx
        rplmLoop max_frame_num idcs ds ls pred r.2 r.1
    else if idc = 2 then
      match ls with
      | [] => .error .indexError
      | n :: ls =>
        let r := moveTo (fun e => decide (e.ltr = some n)) l idx
        rplmLoop max_frame_num idcs ds ls pred r.2 r.1
    else rplmLoop max_frame_num idcs ds ls pred idx l

/-- `apply_rplm` (h264nal-dpb_parse.py:185-232). -/
def applyRplm (l : List Entry) (f : Frame) (max_frame_num : Nat) : Except Err (List Entry) :=
  if f.rplm_l0 = 0 then .ok l
  else rplmLoop max_frame_num f.rplm_mod_idc f.rplm_abs_diff f.rplm_lt_pic_num f.frame_num 0 l

/-- `mmco_str` for a frame with operations (h264nal-dpb_parse.py:250-281): the parts. -/
def mmcoParts (frame_num : Nat) : List Nat → List Nat → List Nat → List Nat → Except Err (List (List Char))
  | [], _, _, _ => .ok []
  | op :: ops, ds, ls, ms =>
    if op = 0 then .ok []
    else if op = 1 then
      match ds with
      | [] => .error .indexError
      | d :: ds => do
        let r ← mmcoParts frame_num ops ds ls ms
        pure (("MMCO1:rm_STR(fn=" ++ toString ((frame_num : Int) - (d + 1)) ++ ")").toList :: r)
    else if op = 2 then do
      let r ← mmcoParts frame_num ops ds ls ms
      pure ("MMCO2:rm_LTR".toList :: r)
    else if op = 3 then
      match ds with
      | [] => .error .indexError
      | d :: ds =>
        match ls with
        | [] => .error .indexError
        | n :: ls => do
          let r ← mmcoParts frame_num ops ds ls ms
          pure (("MMCO3:STR(fn=" ++ toString ((frame_num : Int) - (d + 1)) ++ ")->LTR[" ++ toString n ++ "]").toList :: r)
    else if op = 4 then
      match ms with
      | [] => .error .indexError
      | m :: ms => do
        let r ← mmcoParts frame_num ops ds ls ms
        pure (("MMCO4:max_ltr_idx=" ++ toString ((m : Int) - 1)).toList :: r)
    else if op = 5 then do
      let r ← mmcoParts frame_num ops ds ls ms
      pure ("MMCO5:clear_all".toList :: r)
    else if op = 6 then
      match ls with
      | [] => .error .indexError
      | n :: ls => do
        let r ← mmcoParts frame_num ops ds ls ms
        pure (("MMCO6:self->LTR[" ++ toString n ++ "]").toList :: r)
    else mmcoParts frame_num ops ds ls ms

/-- `";".join` -/
def joinSemi : List (List Char) → List Char
  | [] => []
  | [p] => p
  | p :: q :: r => p ++ (';' :: joinSemi (q :: r))

/-- `mmco_str` (h264nal-dpb_parse.py:240-281). -/
def mmcoStr (f : Frame) : Except Err (List Char) :=
  if f.isIdr then .ok (if f.long_term_reference_flag ≠ 0 then "IDR:LTR[0]".toList else "IDR:STR".toList)
  else if f.mmco = [] then .ok (if f.isRef then "sliding_window".toList else [])
  else do
    let r ← mmcoParts f.frame_num f.mmco f.diff_pic_nums f.long_term_frame_idx f.max_long_term_frame_idx_plus1
    pure (joinSemi r)

/-- The first entry with the property becomes a long-term one (h264nal-dpb_parse.py:363-367). -/
def makeLong (p : Entry → Bool) (idx : Nat) : List Entry → List Entry
  | [] => []
  | e :: t => if p e then { e with ltr := some idx } :: t else e :: makeLong p idx t

/-- The operations (h264nal-dpb_parse.py:337-395). -/
def markOps (frame_num : Nat) : List Nat → List Nat → List Nat → List Nat → List Entry → Except Err (List Entry)
  | [], _, _, _, dpb => .ok dpb
  | op :: ops, ds, ls, ms, dpb =>
    if op = 0 then .ok dpb
    else if op = 1 then
      match ds with
      | [] => .error .indexError
      | d :: ds =>
        markOps frame_num ops ds ls ms (dpb.filter fun e => ¬ (e.ltr = none ∧ (e.frame_num : Int) = (frame_num : Int) - (d + 1)))
    else if op = 2 then markOps frame_num ops ds ls ms dpb
    else if op = 3 then
      match ds with
      | [] => .error .indexError
      | d :: ds =>
        match ls with
        | [] => .error .indexError
        | n :: ls =>
          markOps frame_num ops ds ls ms
            (makeLong (fun e => decide (e.ltr = none ∧ (e.frame_num : Int) = (frame_num : Int) - (d + 1))) n dpb)
    else if op = 4 then
      match ms with
      | [] => .error .indexError
      | m :: ms =>
        markOps frame_num ops ds ls ms
          (if m = 0 then dpb.filter (fun e => e.ltr = none) else dpb.filter fun e => ¬ (e.ltr ≠ none ∧ m ≤ e.ltr.getD 0))
    else if op = 5 then markOps frame_num ops ds ls ms []
    else if op = 6 then
      match ls with
      | [] => .error .indexError
      | n :: ls => markOps frame_num ops ds ls ms ((dpb.filter fun e => e.ltr ≠ some n) ++ [⟨frame_num, some n⟩])
    else markOps frame_num ops ds ls ms dpb

/-- Without the first short-term entry (h264nal-dpb_parse.py:408-412). -/
def popShort : List Entry → Option (List Entry)
  | [] => none
  | e :: t => if e.ltr = none then some t else (popShort t).map (e :: ·)

/-- The `while` loop of the sliding window (h264nal-dpb_parse.py:405-412), which is entered as often as there are entries too many: a pass
that finds no short-term entry changes nothing, and all passes after it are the same. -/
def slide : Nat → List Entry → Except Err (List Entry)
  | 0, dpb => .ok dpb
  | k + 1, dpb =>
    match popShort dpb with
    | none => .error .loops
    | some d => slide k d

/-- The marking of one frame (h264nal-dpb_parse.py:317-412); `dpb` has been emptied for an IDR picture. -/
def mark (max_num_ref_frames : Nat) (f : Frame) (dpb : List Entry) : Except Err (List Entry) :=
  if f.isIdr then
    if f.long_term_reference_flag ≠ 0 then .ok (dpb ++ [⟨f.frame_num, some 0⟩])
    else if f.isRef then .ok (dpb ++ [⟨f.frame_num, none⟩])
    else .ok dpb
  else if f.mmco ≠ [] then
    markOps f.frame_num f.mmco f.diff_pic_nums f.long_term_frame_idx f.max_long_term_frame_idx_plus1 dpb
  else if f.isRef then
    slide ((dpb ++ [(⟨f.frame_num, none⟩ : Entry)]).length - max_num_ref_frames) (dpb ++ [⟨f.frame_num, none⟩])
  else .ok dpb

/-- `frame_type_str` (h264nal-dpb_parse.py:149-156). -/
def frameType (f : Frame) : List Char :=
  if f.isIdr then "IDR".toList
  else match f.slice_type with
    | 0 => "P".toList
    | 1 => "B".toList
    | 2 => "I".toList
    | 3 => "SP".toList
    | 4 => "SI".toList
    | t => ("?" ++ toString t).toList

/-- A line of the table (h264nal-dpb_parse.py:416-420), before it is written as text. -/
structure Row where
  abs_frame : Nat
  gop : Nat
  gop_frame : Nat
  type : List Char
  frame_num : Nat
  nal_ref_idc : Nat
  ref : Bool
  refs_used : List Entry
  dpb_before_decode : List Entry
  mmco : List Char
  dpb_after_mmco : List Entry
  deriving DecidableEq, Repr

/-- The references of a frame (h264nal-dpb_parse.py:305-311). -/
def refsUsed (max_frame_num : Nat) (f : Frame) (dpb : List Entry) : Except Err (List Entry) :=
  if (f.slice_type = 0 ∨ f.slice_type = 1) ∧ dpb ≠ [] then do
    let l ← applyRplm (buildRefPicList0 dpb) f max_frame_num
    pure (l.take f.num_ref_idx_l0_active)
  else .ok []

/-- The loop of `simulate_dpb` (h264nal-dpb_parse.py:285-290, 297-422). -/
def simulate (s : Sps) : Nat → Nat → Nat → List Entry → List Frame → Except Err (List Row)
  | _, _, _, _, [] => .ok []
  | abs_frame, gop, gop_frame, dpb, f :: fs => do
    let dpb := if f.isIdr then [] else dpb
    let gop := if f.isIdr then gop + (if abs_frame > 0 then 1 else 0) else gop
    let gop_frame := if f.isIdr then 0 else gop_frame
    let refs ← refsUsed (2 ^ (s.log2_max_frame_num_minus4 + 4)) f dpb
    let mmco ← mmcoStr f
    let after ← mark s.max_num_ref_frames f dpb
    let rows ← simulate s (abs_frame + 1) gop (gop_frame + 1) after fs
    pure ({ abs_frame, gop, gop_frame, type := frameType f, frame_num := f.frame_num, nal_ref_idc := f.nal_ref_idc, ref := f.isRef,
            refs_used := refs, dpb_before_decode := dpb, mmco, dpb_after_mmco := after } :: rows)

/-- `entry_str` (h264nal-dpb_parse.py:159-165). -/
def entryStr (e : Entry) : List Char :=
  match e.ltr with
  | some n => ("fn=" ++ toString e.frame_num ++ "/LTR[" ++ toString n ++ "]").toList
  | none => ("fn=" ++ toString e.frame_num ++ "/STR").toList

/-- The text of a line (h264nal-dpb_parse.py:416-420). -/
def rowText (r : Row) : List Char :=
  (toString r.abs_frame ++ "," ++ toString r.gop ++ "," ++ toString r.gop_frame ++ ",").toList ++ r.type ++
  ("," ++ toString r.frame_num ++ "," ++ toString r.nal_ref_idc ++ "," ++ (if r.ref then "Y" else "N") ++ ",").toList ++
  joinSemi (r.refs_used.map entryStr) ++ [','] ++ joinSemi (r.dpb_before_decode.map entryStr) ++ [','] ++ r.mmco ++ [','] ++
  joinSemi (r.dpb_after_mmco.map entryStr) ++ ['\n']

/-- The options given to the tool (h264nal-dpb_parse.py:18-23). -/
def dpbArgs : ToolArgs := { as_one_line := false }

/-- What a run of the script ends with. -/
inductive Outcome where
  /-- `h264nal failed`, exit status 1 -/
  | failed
  | error (e : Err)
  | table (rows : List Row)
  deriving DecidableEq, Repr

/-- h264nal-dpb_parse.py:466-480: what is done with the text the tool wrote.  Without an SPS the message on `stderr` (467-472) raises the
exception. -/
def dpbWith (out : List Char) : Except Err (List Row) := do
  let (sps, frames) ← parseFrames out
  match sps with
  | none => .error .keyError
  | some s => simulate s 0 0 0 [] frames

/-- `main` (h264nal-dpb_parse.py:449-480) for an input file with the bytes `data`. -/
def main (nd : Bool) (data : List UInt8) : Res Outcome := do
  let (out, code) ← toolMain nd dpbArgs data
  if code ≠ 0 then pure .failed
  else
    match dpbWith out with
    | .ok rows => pure (.table rows)
    | .error e => pure (.error e)

/-- What is written for a table (h264nal-dpb_parse.py:292-295, 416-420). -/
def tableText (rows : List Row) : List Char :=
  "abs_frame,gop,gop_frame,type,frame_num,nal_ref_idc,ref,refs_used,dpb_before_decode,mmco,dpb_after_mmco\n".toList ++ rows.flatMap rowText

end H264.Dpb
