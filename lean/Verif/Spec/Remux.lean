import Verif.Spec.Nal
import Verif.Spec.StoreRtp

/-
The same NAL units in different containers (C70).
-/

namespace H264.Spec

/-- What was parsed, apart from where in the container it was: for each NAL unit the number of bytes parsed, the checksum, the header and
the payload. -/
def contents (bs : Bitstream) : List (Nat × Option NaluChecksum × NalHeader × Payload) :=
  bs.nal_units.map fun n => (n.parsed_length, n.checksum, n.nal_unit_header, n.nal_unit_payload)

/-- The headers and payloads of the single NAL unit packets that were returned. -/
def singles (xs : List (Option Rtp)) : List (Option (NalHeader × Payload)) :=
  xs.filterMap fun x => x.map fun y => y.rtp_single.map fun z => (z.nal_unit_header, z.nal_unit_payload)

end H264.Spec
