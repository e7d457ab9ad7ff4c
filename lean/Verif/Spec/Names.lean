/-
Specification: the names of the NAL unit types.
-/

namespace H264.Spec

/-- The names of types 0 to 31, in order (Table 7-1). -/
def typeNames : List String :=
  ["unspecified", "coded_slice_of_non_idr_picture", "coded_slice_data_partition_a", "coded_slice_data_partition_b",
   "coded_slice_data_partition_c", "coded_slice_of_idr_picture", "sei", "sps", "pps", "aud", "eoseq", "eostream", "filler_data",
   "sps_extension", "prefix", "subset_sps", "rsv16", "rsv17", "rsv18", "coded_slice_of_auxiliary_coded_picture",
   "coded_slice_extension", "rsv21", "rsv22", "rsv23", "unspec24", "unspec25", "unspec26", "unspec27", "unspec28", "unspec29",
   "unspec30", "unspec31"]

end H264.Spec
