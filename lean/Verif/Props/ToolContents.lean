import Verif.Props.Tool

/-
C58: what is shown together with the contents.
-/

namespace H264.Props
open H264.Spec

theorem toolMain_congr {nd : Bool} {a b : ToolArgs} (h : toolOptions a = toolOptions b) (h1 : a.dumpmode = b.dumpmode)
    (h2 : a.as_one_line = b.as_one_line) (h3 : a.add_contents = b.add_contents) (h4 : a.nalu_length_bytes = b.nalu_length_bytes)
    (h5 : a.frames_per_second = b.frames_per_second) (data : List UInt8) : toolMain nd a data = toolMain nd b data := by
  have e1 : toolParse nd a data = toolParse nd b data := by unfold toolParse; rw [h, h4]
  have e2 : ∀ n, dumpAllUnit a data n = dumpAllUnit b data n := by intro n; unfold dumpAllUnit; rw [h, h2, h3]
  have e3 : ∀ bs, toolDump a data bs = toolDump b data bs := by
    intro bs
    unfold toolDump
    rw [h1, h5, show dumpAllUnit a data = dumpAllUnit b data from funext e2]
  have e4 : ∀ bs, unparsedUnits a data bs = unparsedUnits b data bs := by
    intro bs
    unfold unparsedUnits
    simp only [h4]
  unfold toolMain
  simp only [e1, e3, e4]

/-- C58: whoever asks for the contents of the NAL units also gets their offsets and lengths, as if they had asked for them. -/
theorem C58_contents_offset (nd : Bool) (a : ToolArgs) (ha : a.add_contents = true) (data : List UInt8) :
    toolMain nd a data = toolMain nd { a with add_offset := true, add_length := true } data := by
  apply toolMain_congr <;> try rfl
  simp [toolOptions, ha]

/-- C58: in the table, asking for lengths makes no difference. -/
theorem C58_table_length (nd : Bool) (a : ToolArgs) (ha : a.dumpmode = .dump_length) (data : List UInt8) :
    toolMain nd a data = toolMain nd { a with add_length := true } data := by
  apply toolMain_congr <;> try rfl
  simp [toolOptions, ha]

/-- Without contents the offset is not shown unless it is asked for. -/
example (nd : Bool) : toolMain nd {} [0, 0, 1, 0x09, 0x10, 0x80] = .val
    ("nal_unit { nal_unit_header { forbidden_zero_bit: 0 nal_ref_idc: 0 ".toList ++ "nal_unit_type: 9 } nal_unit_payload {  } }\n".toList, 0) ∧
    toolMain nd { add_contents := true } [0, 0, 1, 0x09, 0x10, 0x80] = .val
    ("nal_unit { offset: 0x00000003 length: 3 ".toList ++ "nal_unit_header { forbidden_zero_bit: 0 nal_ref_idc: 0 ".toList ++
     "nal_unit_type: 9 } nal_unit_payload {  } }".toList ++ " contents { 09 10 80 }\n".toList, 0) := by
  cases nd <;> decide +kernel

/-- The table of a stream with two NAL units. -/
example (nd : Bool) : ∃ r, toolMain nd { dumpmode := .dump_length } [0, 0, 1, 0x09, 0x10, 0, 0, 1, 0x0b] = .val r ∧ r.1.count '\n' = 3 := by
  cases nd <;> exact exists_dec (by decide +kernel)

end H264.Props
