import Verif.Model.Site

/-!
# Integer expressions, array accesses and calls

Generated by `tools/gen_sites.py` from /repo/src/micro.cpp, assembly.cpp, solve.cpp, homogenize.cpp and output.cpp;
see there for what is extracted.
-/

namespace Verif

/-- Integer expressions of /repo/src/micro.cpp:28-224. -/
def microInts0 : List Site :=
  [⟨"micro.cpp", [41], [], .fits (.mul (.mul (.var .nx) (.var .ny)) (.var .nz))⟩,
   ⟨"micro.cpp", [43], [], .fits (.sub (.var .nx) (.lit 1))⟩,
   ⟨"micro.cpp", [44], [], .fits (.sub (.var .ny) (.lit 1))⟩,
   ⟨"micro.cpp", [45], [], .fits (.sub (.var .nz) (.lit 1))⟩,
   ⟨"micro.cpp", [49], [.eq .dim (.lit 2)], .fits (.mul (.sub (.var .nx) (.lit 1)) (.sub (.var .ny) (.lit 1)))⟩,
   ⟨"micro.cpp", [49], [.ne .dim (.lit 2)], .fits (.mul (.mul (.sub (.var .nx) (.lit 1)) (.sub (.var .ny) (.lit 1))) (.sub (.var .nz) (.lit 1)))⟩,
   ⟨"micro.cpp", [52], [], .fits (.mul (.mul (.var .nelem) (.lit 8)) (.lit 7))⟩,
   ⟨"micro.cpp", [58, 59, 60], [], .fits (.mul (.var .nn) (.var .dim))⟩,
   ⟨"micro.cpp", [61, 62], [], .fits (.mul (.var .nelem) (.var .nvoi))⟩,
   ⟨"micro.cpp", [90], [.loop .i (.lit 0) (.var .numMaterials)], .fits (.add (.mul (.var .i) (.lit 10)) (.lit 0))⟩,
   ⟨"micro.cpp", [91], [.loop .i (.lit 0) (.var .numMaterials)], .fits (.add (.mul (.var .i) (.lit 10)) (.lit 1))⟩,
   ⟨"micro.cpp", [92], [.loop .i (.lit 0) (.var .numMaterials)], .fits (.add (.mul (.var .i) (.lit 10)) (.lit 2))⟩,
   ⟨"micro.cpp", [93], [.loop .i (.lit 0) (.var .numMaterials)], .fits (.add (.mul (.var .i) (.lit 10)) (.lit 3))⟩,
   ⟨"micro.cpp", [119], [.eq .dim (.lit 2)], .fits (.sub (.var .nx) (.lit 1))⟩,
   ⟨"micro.cpp", [120], [.eq .dim (.lit 2)], .fits (.sub (.var .ny) (.lit 1))⟩,
   ⟨"micro.cpp", [121], [.eq .dim (.lit 2), .loop .ex (.lit 0) (.sub (.var .nx) (.lit 1)), .loop .ey (.lit 0) (.sub (.var .ny) (.lit 1))], .fits (.add (.add (.mul (.mul (.lit 0) (.sub (.var .nx) (.lit 1))) (.sub (.var .ny) (.lit 1))) (.mul (.var .ey) (.sub (.var .nx) (.lit 1)))) (.var .ex))⟩,
   ⟨"micro.cpp", [127], [.eq .dim (.lit 3)], .fits (.sub (.var .nx) (.lit 1))⟩,
   ⟨"micro.cpp", [128], [.eq .dim (.lit 3)], .fits (.sub (.var .ny) (.lit 1))⟩,
   ⟨"micro.cpp", [129], [.eq .dim (.lit 3)], .fits (.sub (.var .nz) (.lit 1))⟩,
   ⟨"micro.cpp", [130], [.eq .dim (.lit 3), .loop .ex (.lit 0) (.sub (.var .nx) (.lit 1)), .loop .ey (.lit 0) (.sub (.var .ny) (.lit 1)), .loop .ez (.lit 0) (.sub (.var .nz) (.lit 1))], .fits (.add (.add (.mul (.mul (.var .ez) (.sub (.var .nx) (.lit 1))) (.sub (.var .ny) (.lit 1))) (.mul (.var .ey) (.sub (.var .nx) (.lit 1)))) (.var .ex))⟩]

/-- Array accesses and arguments of /repo/src/micro.cpp:28-224. -/
def microUses0 : List Site :=
  [⟨"micro.cpp", [32], [], .index "_micro_params" (.lit 0) (.lit 5)⟩,
   ⟨"micro.cpp", [33], [], .index "_micro_params" (.lit 1) (.lit 5)⟩,
   ⟨"micro.cpp", [34], [.ne .dim (.lit 2)], .index "_micro_params" (.lit 2) (.lit 5)⟩,
   ⟨"micro.cpp", [35], [], .index "_micro_params" (.lit 3) (.lit 5)⟩,
   ⟨"micro.cpp", [37], [], .index "micro_params" (.lit 4) (.lit 5)⟩,
   ⟨"micro.cpp", [38], [], .index "size" (.lit 0) (.var .dim)⟩,
   ⟨"micro.cpp", [39], [], .index "size" (.lit 1) (.var .dim)⟩,
   ⟨"micro.cpp", [40], [.ne .dim (.lit 2)], .index "size" (.lit 2) (.var .dim)⟩,
   ⟨"micro.cpp", [84], [.loop .i (.lit 0) (.var .nParams)], .index "micro_params" (.var .i) (.lit 5)⟩,
   ⟨"micro.cpp", [84], [.loop .i (.lit 0) (.var .nParams)], .index "_micro_params" (.var .i) (.lit 5)⟩,
   ⟨"micro.cpp", [90, 91, 92, 93, 95, 96, 97, 98, 102, 103, 106, 107, 110, 111, 113, 114], [.loop .i (.lit 0) (.var .numMaterials)], .index "material_list" (.var .i) (.lit 10)⟩,
   ⟨"micro.cpp", [90], [.loop .i (.lit 0) (.var .numMaterials)], .index "params" (.add (.mul (.var .i) (.lit 10)) (.lit 0)) (.lit 14)⟩,
   ⟨"micro.cpp", [91], [.loop .i (.lit 0) (.var .numMaterials)], .index "params" (.add (.mul (.var .i) (.lit 10)) (.lit 1)) (.lit 14)⟩,
   ⟨"micro.cpp", [92], [.loop .i (.lit 0) (.var .numMaterials)], .index "params" (.add (.mul (.var .i) (.lit 10)) (.lit 2)) (.lit 14)⟩,
   ⟨"micro.cpp", [93], [.loop .i (.lit 0) (.var .numMaterials)], .index "params" (.add (.mul (.var .i) (.lit 10)) (.lit 3)) (.lit 14)⟩,
   ⟨"micro.cpp", [100, 104, 108], [.loop .i (.lit 0) (.var .numMaterials)], .index "mat_types" (.var .i) (.lit 2)⟩,
   ⟨"micro.cpp", [122], [.eq .dim (.lit 2), .loop .ex (.lit 0) (.sub (.var .nx) (.lit 1)), .loop .ey (.lit 0) (.sub (.var .ny) (.lit 1)), .eq .e (.add (.add (.mul (.mul (.lit 0) (.sub (.var .nx) (.lit 1))) (.sub (.var .ny) (.lit 1))) (.mul (.var .ey) (.sub (.var .nx) (.lit 1)))) (.var .ex))], .index "elem_type" (.var .e) (.var .nelem)⟩,
   ⟨"micro.cpp", [122], [.eq .dim (.lit 2)], .range (.var .dim) (.lit 2) (.lit 3)⟩,
   ⟨"micro.cpp", [122], [.eq .dim (.lit 2), .loop .ex (.lit 0) (.sub (.var .nx) (.lit 1))], .range (.var .ex) (.lit 0) (.sub (.var .nx) (.lit 1))⟩,
   ⟨"micro.cpp", [122], [.eq .dim (.lit 2), .loop .ey (.lit 0) (.sub (.var .ny) (.lit 1))], .range (.var .ey) (.lit 0) (.sub (.var .ny) (.lit 1))⟩,
   ⟨"micro.cpp", [131], [.eq .dim (.lit 3), .loop .ex (.lit 0) (.sub (.var .nx) (.lit 1)), .loop .ey (.lit 0) (.sub (.var .ny) (.lit 1)), .loop .ez (.lit 0) (.sub (.var .nz) (.lit 1)), .eq .e (.add (.add (.mul (.mul (.var .ez) (.sub (.var .nx) (.lit 1))) (.sub (.var .ny) (.lit 1))) (.mul (.var .ey) (.sub (.var .nx) (.lit 1)))) (.var .ex))], .index "elem_type" (.var .e) (.var .nelem)⟩,
   ⟨"micro.cpp", [131], [.eq .dim (.lit 3)], .range (.var .dim) (.lit 3) (.lit 4)⟩,
   ⟨"micro.cpp", [131], [.eq .dim (.lit 3), .loop .ex (.lit 0) (.sub (.var .nx) (.lit 1))], .range (.var .ex) (.lit 0) (.sub (.var .nx) (.lit 1))⟩,
   ⟨"micro.cpp", [131], [.eq .dim (.lit 3), .loop .ey (.lit 0) (.sub (.var .ny) (.lit 1))], .range (.var .ey) (.lit 0) (.sub (.var .ny) (.lit 1))⟩,
   ⟨"micro.cpp", [131], [.eq .dim (.lit 3), .loop .ez (.lit 0) (.sub (.var .nz) (.lit 1))], .range (.var .ez) (.lit 0) (.sub (.var .nz) (.lit 1))⟩,
   ⟨"micro.cpp", [187], [.eq .dim (.lit 2)], .index "micro_params" (.lit 3) (.lit 5)⟩,
   ⟨"micro.cpp", [212], [.eq .dim (.lit 3)], .index "micro_params" (.lit 3) (.lit 5)⟩]

/-- Integer expressions of /repo/src/assembly.cpp:29-1182, part 1. -/
def assemblyInts0 : List Site :=
  [⟨"assembly.cpp", [39], [.eq .dim (.lit 2), .loop .i (.lit 0) (.var .nx)], .fits (.mul (.var .i) (.var .dim))⟩,
   ⟨"assembly.cpp", [40], [.eq .dim (.lit 2), .loop .i (.lit 0) (.var .nx)], .fits (.add (.mul (.var .i) (.var .dim)) (.lit 1))⟩,
   ⟨"assembly.cpp", [48], [.eq .dim (.lit 2), .loop .i (.lit 0) (.var .nx)], .fits (.mul (.add (.var .i) (.mul (.sub (.var .ny) (.lit 1)) (.var .nx))) (.var .dim))⟩,
   ⟨"assembly.cpp", [49], [.eq .dim (.lit 2), .loop .i (.lit 0) (.var .nx)], .fits (.add (.mul (.add (.var .i) (.mul (.sub (.var .ny) (.lit 1)) (.var .nx))) (.var .dim)) (.lit 1))⟩,
   ⟨"assembly.cpp", [52, 61, 223, 228], [.eq .dim (.lit 2)], .fits (.sub (.var .ny) (.lit 2))⟩,
   ⟨"assembly.cpp", [54, 63], [.eq .dim (.lit 2), .loop .i (.lit 0) (.sub (.var .ny) (.lit 2))], .fits (.add (.var .i) (.lit 1))⟩,
   ⟨"assembly.cpp", [57], [.eq .dim (.lit 2), .loop .i (.lit 0) (.sub (.var .ny) (.lit 2))], .fits (.mul (.mul (.add (.var .i) (.lit 1)) (.var .nx)) (.var .dim))⟩,
   ⟨"assembly.cpp", [58], [.eq .dim (.lit 2), .loop .i (.lit 0) (.sub (.var .ny) (.lit 2))], .fits (.add (.mul (.mul (.add (.var .i) (.lit 1)) (.var .nx)) (.var .dim)) (.lit 1))⟩,
   ⟨"assembly.cpp", [66], [.eq .dim (.lit 2), .loop .i (.lit 0) (.sub (.var .ny) (.lit 2))], .fits (.mul (.sub (.mul (.add (.var .i) (.lit 2)) (.var .nx)) (.lit 1)) (.var .dim))⟩,
   ⟨"assembly.cpp", [67], [.eq .dim (.lit 2), .loop .i (.lit 0) (.sub (.var .ny) (.lit 2))], .fits (.add (.mul (.sub (.mul (.add (.var .i) (.lit 2)) (.var .nx)) (.lit 1)) (.var .dim)) (.lit 1))⟩,
   ⟨"assembly.cpp", [75, 274], [.eq .dim (.lit 3), .loop .i (.lit 0) (.var .nx), .loop .j (.lit 0) (.var .ny)], .fits (.add (.add (.mul (.mul (.lit 0) (.var .nx)) (.var .ny)) (.mul (.var .j) (.var .nx))) (.var .i))⟩,
   ⟨"assembly.cpp", [82], [.eq .dim (.lit 3), .loop .i (.lit 0) (.var .nx), .loop .j (.lit 0) (.var .ny), .eq .n (.add (.add (.mul (.mul (.lit 0) (.var .nx)) (.var .ny)) (.mul (.var .j) (.var .nx))) (.var .i))], .fits (.mul (.var .n) (.var .dim))⟩,
   ⟨"assembly.cpp", [83], [.eq .dim (.lit 3), .loop .i (.lit 0) (.var .nx), .loop .j (.lit 0) (.var .ny), .eq .n (.add (.add (.mul (.mul (.lit 0) (.var .nx)) (.var .ny)) (.mul (.var .j) (.var .nx))) (.var .i))], .fits (.add (.mul (.var .n) (.var .dim)) (.lit 1))⟩,
   ⟨"assembly.cpp", [84], [.eq .dim (.lit 3), .loop .i (.lit 0) (.var .nx), .loop .j (.lit 0) (.var .ny), .eq .n (.add (.add (.mul (.mul (.lit 0) (.var .nx)) (.var .ny)) (.mul (.var .j) (.var .nx))) (.var .i))], .fits (.add (.mul (.var .n) (.var .dim)) (.lit 2))⟩,
   ⟨"assembly.cpp", [90, 282], [.eq .dim (.lit 3), .loop .i (.lit 0) (.var .nx), .loop .j (.lit 0) (.var .ny)], .fits (.add (.add (.mul (.mul (.sub (.var .nz) (.lit 1)) (.var .nx)) (.var .ny)) (.mul (.var .j) (.var .nx))) (.var .i))⟩,
   ⟨"assembly.cpp", [97], [.eq .dim (.lit 3), .loop .i (.lit 0) (.var .nx), .loop .j (.lit 0) (.var .ny), .eq .n (.add (.add (.mul (.mul (.sub (.var .nz) (.lit 1)) (.var .nx)) (.var .ny)) (.mul (.var .j) (.var .nx))) (.var .i))], .fits (.mul (.var .n) (.var .dim))⟩,
   ⟨"assembly.cpp", [98], [.eq .dim (.lit 3), .loop .i (.lit 0) (.var .nx), .loop .j (.lit 0) (.var .ny), .eq .n (.add (.add (.mul (.mul (.sub (.var .nz) (.lit 1)) (.var .nx)) (.var .ny)) (.mul (.var .j) (.var .nx))) (.var .i))], .fits (.add (.mul (.var .n) (.var .dim)) (.lit 1))⟩,
   ⟨"assembly.cpp", [99], [.eq .dim (.lit 3), .loop .i (.lit 0) (.var .nx), .loop .j (.lit 0) (.var .ny), .eq .n (.add (.add (.mul (.mul (.sub (.var .nz) (.lit 1)) (.var .nx)) (.var .ny)) (.mul (.var .j) (.var .nx))) (.var .i))], .fits (.add (.mul (.var .n) (.var .dim)) (.lit 2))⟩,
   ⟨"assembly.cpp", [105, 121, 137, 153, 237, 289, 297, 305, 313, 355, 761, 821, 888], [.eq .dim (.lit 3)], .fits (.sub (.var .nz) (.lit 1))⟩,
   ⟨"assembly.cpp", [106, 290], [.eq .dim (.lit 3), .loop .i (.lit 0) (.var .nx), .loop .k (.lit 1) (.sub (.var .nz) (.lit 1))], .fits (.add (.add (.mul (.mul (.var .k) (.var .nx)) (.var .ny)) (.mul (.lit 0) (.var .nx))) (.var .i))⟩,
   ⟨"assembly.cpp", [113], [.eq .dim (.lit 3), .loop .i (.lit 0) (.var .nx), .loop .k (.lit 1) (.sub (.var .nz) (.lit 1)), .eq .n (.add (.add (.mul (.mul (.var .k) (.var .nx)) (.var .ny)) (.mul (.lit 0) (.var .nx))) (.var .i))], .fits (.mul (.var .n) (.var .dim))⟩,
   ⟨"assembly.cpp", [114], [.eq .dim (.lit 3), .loop .i (.lit 0) (.var .nx), .loop .k (.lit 1) (.sub (.var .nz) (.lit 1)), .eq .n (.add (.add (.mul (.mul (.var .k) (.var .nx)) (.var .ny)) (.mul (.lit 0) (.var .nx))) (.var .i))], .fits (.add (.mul (.var .n) (.var .dim)) (.lit 1))⟩,
   ⟨"assembly.cpp", [115], [.eq .dim (.lit 3), .loop .i (.lit 0) (.var .nx), .loop .k (.lit 1) (.sub (.var .nz) (.lit 1)), .eq .n (.add (.add (.mul (.mul (.var .k) (.var .nx)) (.var .ny)) (.mul (.lit 0) (.var .nx))) (.var .i))], .fits (.add (.mul (.var .n) (.var .dim)) (.lit 2))⟩,
   ⟨"assembly.cpp", [122, 298], [.eq .dim (.lit 3), .loop .i (.lit 0) (.var .nx), .loop .k (.lit 1) (.sub (.var .nz) (.lit 1))], .fits (.add (.add (.mul (.mul (.var .k) (.var .nx)) (.var .ny)) (.mul (.sub (.var .ny) (.lit 1)) (.var .nx))) (.var .i))⟩,
   ⟨"assembly.cpp", [129], [.eq .dim (.lit 3), .loop .i (.lit 0) (.var .nx), .loop .k (.lit 1) (.sub (.var .nz) (.lit 1)), .eq .n (.add (.add (.mul (.mul (.var .k) (.var .nx)) (.var .ny)) (.mul (.sub (.var .ny) (.lit 1)) (.var .nx))) (.var .i))], .fits (.mul (.var .n) (.var .dim))⟩,
   ⟨"assembly.cpp", [130], [.eq .dim (.lit 3), .loop .i (.lit 0) (.var .nx), .loop .k (.lit 1) (.sub (.var .nz) (.lit 1)), .eq .n (.add (.add (.mul (.mul (.var .k) (.var .nx)) (.var .ny)) (.mul (.sub (.var .ny) (.lit 1)) (.var .nx))) (.var .i))], .fits (.add (.mul (.var .n) (.var .dim)) (.lit 1))⟩,
   ⟨"assembly.cpp", [131], [.eq .dim (.lit 3), .loop .i (.lit 0) (.var .nx), .loop .k (.lit 1) (.sub (.var .nz) (.lit 1)), .eq .n (.add (.add (.mul (.mul (.var .k) (.var .nx)) (.var .ny)) (.mul (.sub (.var .ny) (.lit 1)) (.var .nx))) (.var .i))], .fits (.add (.mul (.var .n) (.var .dim)) (.lit 2))⟩,
   ⟨"assembly.cpp", [136, 152, 236, 304, 312, 354, 760, 820, 887], [.eq .dim (.lit 3)], .fits (.sub (.var .ny) (.lit 1))⟩,
   ⟨"assembly.cpp", [138, 306], [.eq .dim (.lit 3), .loop .j (.lit 1) (.sub (.var .ny) (.lit 1)), .loop .k (.lit 1) (.sub (.var .nz) (.lit 1))], .fits (.add (.add (.mul (.mul (.var .k) (.var .nx)) (.var .ny)) (.mul (.var .j) (.var .nx))) (.lit 0))⟩,
   ⟨"assembly.cpp", [145], [.eq .dim (.lit 3), .loop .j (.lit 1) (.sub (.var .ny) (.lit 1)), .loop .k (.lit 1) (.sub (.var .nz) (.lit 1)), .eq .n (.add (.add (.mul (.mul (.var .k) (.var .nx)) (.var .ny)) (.mul (.var .j) (.var .nx))) (.lit 0))], .fits (.mul (.var .n) (.var .dim))⟩,
   ⟨"assembly.cpp", [146], [.eq .dim (.lit 3), .loop .j (.lit 1) (.sub (.var .ny) (.lit 1)), .loop .k (.lit 1) (.sub (.var .nz) (.lit 1)), .eq .n (.add (.add (.mul (.mul (.var .k) (.var .nx)) (.var .ny)) (.mul (.var .j) (.var .nx))) (.lit 0))], .fits (.add (.mul (.var .n) (.var .dim)) (.lit 1))⟩,
   ⟨"assembly.cpp", [147], [.eq .dim (.lit 3), .loop .j (.lit 1) (.sub (.var .ny) (.lit 1)), .loop .k (.lit 1) (.sub (.var .nz) (.lit 1)), .eq .n (.add (.add (.mul (.mul (.var .k) (.var .nx)) (.var .ny)) (.mul (.var .j) (.var .nx))) (.lit 0))], .fits (.add (.mul (.var .n) (.var .dim)) (.lit 2))⟩,
   ⟨"assembly.cpp", [154, 314], [.eq .dim (.lit 3), .loop .j (.lit 1) (.sub (.var .ny) (.lit 1)), .loop .k (.lit 1) (.sub (.var .nz) (.lit 1))], .fits (.add (.add (.mul (.mul (.var .k) (.var .nx)) (.var .ny)) (.mul (.var .j) (.var .nx))) (.sub (.var .nx) (.lit 1)))⟩,
   ⟨"assembly.cpp", [161], [.eq .dim (.lit 3), .loop .j (.lit 1) (.sub (.var .ny) (.lit 1)), .loop .k (.lit 1) (.sub (.var .nz) (.lit 1)), .eq .n (.add (.add (.mul (.mul (.var .k) (.var .nx)) (.var .ny)) (.mul (.var .j) (.var .nx))) (.sub (.var .nx) (.lit 1)))], .fits (.mul (.var .n) (.var .dim))⟩,
   ⟨"assembly.cpp", [162], [.eq .dim (.lit 3), .loop .j (.lit 1) (.sub (.var .ny) (.lit 1)), .loop .k (.lit 1) (.sub (.var .nz) (.lit 1)), .eq .n (.add (.add (.mul (.mul (.var .k) (.var .nx)) (.var .ny)) (.mul (.var .j) (.var .nx))) (.sub (.var .nx) (.lit 1)))], .fits (.add (.mul (.var .n) (.var .dim)) (.lit 1))⟩,
   ⟨"assembly.cpp", [163], [.eq .dim (.lit 3), .loop .j (.lit 1) (.sub (.var .ny) (.lit 1)), .loop .k (.lit 1) (.sub (.var .nz) (.lit 1)), .eq .n (.add (.add (.mul (.mul (.var .k) (.var .nx)) (.var .ny)) (.mul (.var .j) (.var .nx))) (.sub (.var .nx) (.lit 1)))], .fits (.add (.mul (.var .n) (.var .dim)) (.lit 2))⟩,
   ⟨"assembly.cpp", [177, 322, 326], [], .fits (.mul (.var .nn) (.var .dim))⟩,
   ⟨"assembly.cpp", [184, 342, 733, 797, 852], [.eq .dim (.lit 2)], .fits (.sub (.var .nx) (.lit 1))⟩,
   ⟨"assembly.cpp", [185, 343, 734, 798, 853], [.eq .dim (.lit 2)], .fits (.sub (.var .ny) (.lit 1))⟩,
   ⟨"assembly.cpp", [187, 1148], [.eq .dim (.lit 2), .loop .ex (.lit 0) (.sub (.var .nx) (.lit 1)), .loop .ey (.lit 0) (.sub (.var .ny) (.lit 1))], .fits (.add (.mul (.var .ey) (.var .nx)) (.var .ex))⟩,
   ⟨"assembly.cpp", [188, 1149], [.eq .dim (.lit 2), .loop .ex (.lit 0) (.sub (.var .nx) (.lit 1)), .loop .ey (.lit 0) (.sub (.var .ny) (.lit 1))], .fits (.add (.add (.mul (.var .ey) (.var .nx)) (.var .ex)) (.lit 1))⟩,
   ⟨"assembly.cpp", [189, 1150], [.eq .dim (.lit 2), .loop .ex (.lit 0) (.sub (.var .nx) (.lit 1)), .loop .ey (.lit 0) (.sub (.var .ny) (.lit 1))], .fits (.add (.add (.mul (.add (.var .ey) (.lit 1)) (.var .nx)) (.var .ex)) (.lit 1))⟩,
   ⟨"assembly.cpp", [190, 1151], [.eq .dim (.lit 2), .loop .ex (.lit 0) (.sub (.var .nx) (.lit 1)), .loop .ey (.lit 0) (.sub (.var .ny) (.lit 1))], .fits (.add (.mul (.add (.var .ey) (.lit 1)) (.var .nx)) (.var .ex))⟩,
   ⟨"assembly.cpp", [192], [.eq .dim (.lit 2), .loop .ex (.lit 0) (.sub (.var .nx) (.lit 1)), .loop .ey (.lit 0) (.sub (.var .ny) (.lit 1)), .eq .n0 (.add (.mul (.var .ey) (.var .nx)) (.var .ex))], .fits (.mul (.var .n0) (.var .dim))⟩,
   ⟨"assembly.cpp", [193], [.eq .dim (.lit 2), .loop .ex (.lit 0) (.sub (.var .nx) (.lit 1)), .loop .ey (.lit 0) (.sub (.var .ny) (.lit 1)), .eq .n0 (.add (.mul (.var .ey) (.var .nx)) (.var .ex))], .fits (.add (.mul (.var .n0) (.var .dim)) (.lit 1))⟩,
   ⟨"assembly.cpp", [194], [.eq .dim (.lit 2), .loop .ex (.lit 0) (.sub (.var .nx) (.lit 1)), .loop .ey (.lit 0) (.sub (.var .ny) (.lit 1)), .eq .n1 (.add (.add (.mul (.var .ey) (.var .nx)) (.var .ex)) (.lit 1))], .fits (.mul (.var .n1) (.var .dim))⟩,
   ⟨"assembly.cpp", [195], [.eq .dim (.lit 2), .loop .ex (.lit 0) (.sub (.var .nx) (.lit 1)), .loop .ey (.lit 0) (.sub (.var .ny) (.lit 1)), .eq .n1 (.add (.add (.mul (.var .ey) (.var .nx)) (.var .ex)) (.lit 1))], .fits (.add (.mul (.var .n1) (.var .dim)) (.lit 1))⟩,
   ⟨"assembly.cpp", [196], [.eq .dim (.lit 2), .loop .ex (.lit 0) (.sub (.var .nx) (.lit 1)), .loop .ey (.lit 0) (.sub (.var .ny) (.lit 1)), .eq .n2 (.add (.add (.mul (.add (.var .ey) (.lit 1)) (.var .nx)) (.var .ex)) (.lit 1))], .fits (.mul (.var .n2) (.var .dim))⟩,
   ⟨"assembly.cpp", [197], [.eq .dim (.lit 2), .loop .ex (.lit 0) (.sub (.var .nx) (.lit 1)), .loop .ey (.lit 0) (.sub (.var .ny) (.lit 1)), .eq .n2 (.add (.add (.mul (.add (.var .ey) (.lit 1)) (.var .nx)) (.var .ex)) (.lit 1))], .fits (.add (.mul (.var .n2) (.var .dim)) (.lit 1))⟩,
   ⟨"assembly.cpp", [198], [.eq .dim (.lit 2), .loop .ex (.lit 0) (.sub (.var .nx) (.lit 1)), .loop .ey (.lit 0) (.sub (.var .ny) (.lit 1)), .eq .n3 (.add (.mul (.add (.var .ey) (.lit 1)) (.var .nx)) (.var .ex))], .fits (.mul (.var .n3) (.var .dim))⟩,
   ⟨"assembly.cpp", [199], [.eq .dim (.lit 2), .loop .ex (.lit 0) (.sub (.var .nx) (.lit 1)), .loop .ey (.lit 0) (.sub (.var .ny) (.lit 1)), .eq .n3 (.add (.mul (.add (.var .ey) (.lit 1)) (.var .nx)) (.var .ex))], .fits (.add (.mul (.var .n3) (.var .dim)) (.lit 1))⟩,
   ⟨"assembly.cpp", [205, 429, 437, 438, 692, 1122], [.eq .dim (.lit 2)], .fits (.mul (.var .npe) (.var .dim))⟩,
   ⟨"assembly.cpp", [215], [.eq .dim (.lit 2), .loop .i (.lit 0) (.var .nx), .loop .d (.lit 0) (.var .dim)], .fits (.add (.mul (.var .i) (.var .dim)) (.var .d))⟩,
   ⟨"assembly.cpp", [220], [.eq .dim (.lit 2), .loop .i (.lit 0) (.var .nx), .loop .d (.lit 0) (.var .dim)], .fits (.add (.mul (.add (.var .i) (.mul (.sub (.var .ny) (.lit 1)) (.var .nx))) (.var .dim)) (.var .d))⟩,
   ⟨"assembly.cpp", [225], [.eq .dim (.lit 2), .loop .i (.lit 0) (.sub (.var .ny) (.lit 2)), .loop .d (.lit 0) (.var .dim)], .fits (.add (.mul (.mul (.add (.var .i) (.lit 1)) (.var .nx)) (.var .dim)) (.var .d))⟩,
   ⟨"assembly.cpp", [230], [.eq .dim (.lit 2), .loop .i (.lit 0) (.sub (.var .ny) (.lit 2)), .loop .d (.lit 0) (.var .dim)], .fits (.add (.mul (.sub (.mul (.add (.var .i) (.lit 2)) (.var .nx)) (.lit 1)) (.var .dim)) (.var .d))⟩,
   ⟨"assembly.cpp", [235, 353, 759, 819, 886], [.eq .dim (.lit 3)], .fits (.sub (.var .nx) (.lit 1))⟩,
   ⟨"assembly.cpp", [239, 1163], [.eq .dim (.lit 3), .loop .ex (.lit 0) (.sub (.var .nx) (.lit 1)), .loop .ey (.lit 0) (.sub (.var .ny) (.lit 1)), .loop .ez (.lit 0) (.sub (.var .nz) (.lit 1))], .fits (.add (.add (.mul (.var .ez) (.mul (.var .nx) (.var .ny))) (.mul (.var .ey) (.var .nx))) (.var .ex))⟩,
   ⟨"assembly.cpp", [240, 1164], [.eq .dim (.lit 3), .loop .ex (.lit 0) (.sub (.var .nx) (.lit 1)), .loop .ey (.lit 0) (.sub (.var .ny) (.lit 1)), .loop .ez (.lit 0) (.sub (.var .nz) (.lit 1))], .fits (.add (.add (.add (.mul (.var .ez) (.mul (.var .nx) (.var .ny))) (.mul (.var .ey) (.var .nx))) (.var .ex)) (.lit 1))⟩,
   ⟨"assembly.cpp", [241, 1165], [.eq .dim (.lit 3), .loop .ex (.lit 0) (.sub (.var .nx) (.lit 1)), .loop .ey (.lit 0) (.sub (.var .ny) (.lit 1)), .loop .ez (.lit 0) (.sub (.var .nz) (.lit 1))], .fits (.add (.add (.add (.mul (.var .ez) (.mul (.var .nx) (.var .ny))) (.mul (.add (.var .ey) (.lit 1)) (.var .nx))) (.var .ex)) (.lit 1))⟩]

/-- Integer expressions of /repo/src/assembly.cpp:29-1182, part 2. -/
def assemblyInts1 : List Site :=
  [⟨"assembly.cpp", [242, 1166], [.eq .dim (.lit 3), .loop .ex (.lit 0) (.sub (.var .nx) (.lit 1)), .loop .ey (.lit 0) (.sub (.var .ny) (.lit 1)), .loop .ez (.lit 0) (.sub (.var .nz) (.lit 1))], .fits (.add (.add (.mul (.var .ez) (.mul (.var .nx) (.var .ny))) (.mul (.add (.var .ey) (.lit 1)) (.var .nx))) (.var .ex))⟩,
   ⟨"assembly.cpp", [243, 1167], [.eq .dim (.lit 3), .loop .ex (.lit 0) (.sub (.var .nx) (.lit 1)), .loop .ey (.lit 0) (.sub (.var .ny) (.lit 1)), .loop .ez (.lit 0) (.sub (.var .nz) (.lit 1)), .eq .n0 (.add (.add (.mul (.var .ez) (.mul (.var .nx) (.var .ny))) (.mul (.var .ey) (.var .nx))) (.var .ex))], .fits (.add (.var .n0) (.mul (.var .nx) (.var .ny)))⟩,
   ⟨"assembly.cpp", [244, 1168], [.eq .dim (.lit 3), .loop .ex (.lit 0) (.sub (.var .nx) (.lit 1)), .loop .ey (.lit 0) (.sub (.var .ny) (.lit 1)), .loop .ez (.lit 0) (.sub (.var .nz) (.lit 1)), .eq .n1 (.add (.add (.add (.mul (.var .ez) (.mul (.var .nx) (.var .ny))) (.mul (.var .ey) (.var .nx))) (.var .ex)) (.lit 1))], .fits (.add (.var .n1) (.mul (.var .nx) (.var .ny)))⟩,
   ⟨"assembly.cpp", [245, 1169], [.eq .dim (.lit 3), .loop .ex (.lit 0) (.sub (.var .nx) (.lit 1)), .loop .ey (.lit 0) (.sub (.var .ny) (.lit 1)), .loop .ez (.lit 0) (.sub (.var .nz) (.lit 1)), .eq .n2 (.add (.add (.add (.mul (.var .ez) (.mul (.var .nx) (.var .ny))) (.mul (.add (.var .ey) (.lit 1)) (.var .nx))) (.var .ex)) (.lit 1))], .fits (.add (.var .n2) (.mul (.var .nx) (.var .ny)))⟩,
   ⟨"assembly.cpp", [246, 1170], [.eq .dim (.lit 3), .loop .ex (.lit 0) (.sub (.var .nx) (.lit 1)), .loop .ey (.lit 0) (.sub (.var .ny) (.lit 1)), .loop .ez (.lit 0) (.sub (.var .nz) (.lit 1)), .eq .n3 (.add (.add (.mul (.var .ez) (.mul (.var .nx) (.var .ny))) (.mul (.add (.var .ey) (.lit 1)) (.var .nx))) (.var .ex))], .fits (.add (.var .n3) (.mul (.var .nx) (.var .ny)))⟩,
   ⟨"assembly.cpp", [249, 1173], [.eq .dim (.lit 3), .loop .d (.lit 0) (.var .dim)], .fits (.add (.mul (.lit 0) (.var .dim)) (.var .d))⟩,
   ⟨"assembly.cpp", [249, 1173], [.eq .dim (.lit 3), .loop .ex (.lit 0) (.sub (.var .nx) (.lit 1)), .loop .ey (.lit 0) (.sub (.var .ny) (.lit 1)), .loop .ez (.lit 0) (.sub (.var .nz) (.lit 1)), .eq .n0 (.add (.add (.mul (.var .ez) (.mul (.var .nx) (.var .ny))) (.mul (.var .ey) (.var .nx))) (.var .ex)), .loop .d (.lit 0) (.var .dim)], .fits (.add (.mul (.var .n0) (.var .dim)) (.var .d))⟩,
   ⟨"assembly.cpp", [250, 1174], [.eq .dim (.lit 3), .loop .d (.lit 0) (.var .dim)], .fits (.add (.mul (.lit 1) (.var .dim)) (.var .d))⟩,
   ⟨"assembly.cpp", [250, 1174], [.eq .dim (.lit 3), .loop .ex (.lit 0) (.sub (.var .nx) (.lit 1)), .loop .ey (.lit 0) (.sub (.var .ny) (.lit 1)), .loop .ez (.lit 0) (.sub (.var .nz) (.lit 1)), .eq .n1 (.add (.add (.add (.mul (.var .ez) (.mul (.var .nx) (.var .ny))) (.mul (.var .ey) (.var .nx))) (.var .ex)) (.lit 1)), .loop .d (.lit 0) (.var .dim)], .fits (.add (.mul (.var .n1) (.var .dim)) (.var .d))⟩,
   ⟨"assembly.cpp", [251, 1175], [.eq .dim (.lit 3), .loop .d (.lit 0) (.var .dim)], .fits (.add (.mul (.lit 2) (.var .dim)) (.var .d))⟩,
   ⟨"assembly.cpp", [251, 1175], [.eq .dim (.lit 3), .loop .ex (.lit 0) (.sub (.var .nx) (.lit 1)), .loop .ey (.lit 0) (.sub (.var .ny) (.lit 1)), .loop .ez (.lit 0) (.sub (.var .nz) (.lit 1)), .eq .n2 (.add (.add (.add (.mul (.var .ez) (.mul (.var .nx) (.var .ny))) (.mul (.add (.var .ey) (.lit 1)) (.var .nx))) (.var .ex)) (.lit 1)), .loop .d (.lit 0) (.var .dim)], .fits (.add (.mul (.var .n2) (.var .dim)) (.var .d))⟩,
   ⟨"assembly.cpp", [252, 1176], [.eq .dim (.lit 3), .loop .d (.lit 0) (.var .dim)], .fits (.add (.mul (.lit 3) (.var .dim)) (.var .d))⟩,
   ⟨"assembly.cpp", [252, 1176], [.eq .dim (.lit 3), .loop .ex (.lit 0) (.sub (.var .nx) (.lit 1)), .loop .ey (.lit 0) (.sub (.var .ny) (.lit 1)), .loop .ez (.lit 0) (.sub (.var .nz) (.lit 1)), .eq .n3 (.add (.add (.mul (.var .ez) (.mul (.var .nx) (.var .ny))) (.mul (.add (.var .ey) (.lit 1)) (.var .nx))) (.var .ex)), .loop .d (.lit 0) (.var .dim)], .fits (.add (.mul (.var .n3) (.var .dim)) (.var .d))⟩,
   ⟨"assembly.cpp", [253, 1177], [.eq .dim (.lit 3), .loop .d (.lit 0) (.var .dim)], .fits (.add (.mul (.lit 4) (.var .dim)) (.var .d))⟩,
   ⟨"assembly.cpp", [253, 1177], [.eq .dim (.lit 3), .loop .ex (.lit 0) (.sub (.var .nx) (.lit 1)), .loop .ey (.lit 0) (.sub (.var .ny) (.lit 1)), .loop .ez (.lit 0) (.sub (.var .nz) (.lit 1)), .eq .n0 (.add (.add (.mul (.var .ez) (.mul (.var .nx) (.var .ny))) (.mul (.var .ey) (.var .nx))) (.var .ex)), .eq .n4 (.add (.var .n0) (.mul (.var .nx) (.var .ny))), .loop .d (.lit 0) (.var .dim)], .fits (.add (.mul (.var .n4) (.var .dim)) (.var .d))⟩,
   ⟨"assembly.cpp", [254, 1178], [.eq .dim (.lit 3), .loop .d (.lit 0) (.var .dim)], .fits (.add (.mul (.lit 5) (.var .dim)) (.var .d))⟩,
   ⟨"assembly.cpp", [254, 1178], [.eq .dim (.lit 3), .loop .ex (.lit 0) (.sub (.var .nx) (.lit 1)), .loop .ey (.lit 0) (.sub (.var .ny) (.lit 1)), .loop .ez (.lit 0) (.sub (.var .nz) (.lit 1)), .eq .n1 (.add (.add (.add (.mul (.var .ez) (.mul (.var .nx) (.var .ny))) (.mul (.var .ey) (.var .nx))) (.var .ex)) (.lit 1)), .eq .n5 (.add (.var .n1) (.mul (.var .nx) (.var .ny))), .loop .d (.lit 0) (.var .dim)], .fits (.add (.mul (.var .n5) (.var .dim)) (.var .d))⟩,
   ⟨"assembly.cpp", [255, 1179], [.eq .dim (.lit 3), .loop .d (.lit 0) (.var .dim)], .fits (.add (.mul (.lit 6) (.var .dim)) (.var .d))⟩,
   ⟨"assembly.cpp", [255, 1179], [.eq .dim (.lit 3), .loop .ex (.lit 0) (.sub (.var .nx) (.lit 1)), .loop .ey (.lit 0) (.sub (.var .ny) (.lit 1)), .loop .ez (.lit 0) (.sub (.var .nz) (.lit 1)), .eq .n2 (.add (.add (.add (.mul (.var .ez) (.mul (.var .nx) (.var .ny))) (.mul (.add (.var .ey) (.lit 1)) (.var .nx))) (.var .ex)) (.lit 1)), .eq .n6 (.add (.var .n2) (.mul (.var .nx) (.var .ny))), .loop .d (.lit 0) (.var .dim)], .fits (.add (.mul (.var .n6) (.var .dim)) (.var .d))⟩,
   ⟨"assembly.cpp", [256, 1180], [.eq .dim (.lit 3), .loop .d (.lit 0) (.var .dim)], .fits (.add (.mul (.lit 7) (.var .dim)) (.var .d))⟩,
   ⟨"assembly.cpp", [256, 1180], [.eq .dim (.lit 3), .loop .ex (.lit 0) (.sub (.var .nx) (.lit 1)), .loop .ey (.lit 0) (.sub (.var .ny) (.lit 1)), .loop .ez (.lit 0) (.sub (.var .nz) (.lit 1)), .eq .n3 (.add (.add (.mul (.var .ez) (.mul (.var .nx) (.var .ny))) (.mul (.add (.var .ey) (.lit 1)) (.var .nx))) (.var .ex)), .eq .n7 (.add (.var .n3) (.mul (.var .nx) (.var .ny))), .loop .d (.lit 0) (.var .dim)], .fits (.add (.mul (.var .n7) (.var .dim)) (.var .d))⟩,
   ⟨"assembly.cpp", [263, 495, 503, 504, 717, 1140], [.eq .dim (.lit 3)], .fits (.mul (.var .npe) (.var .dim))⟩,
   ⟨"assembly.cpp", [276], [.eq .dim (.lit 3), .loop .i (.lit 0) (.var .nx), .loop .j (.lit 0) (.var .ny), .eq .n (.add (.add (.mul (.mul (.lit 0) (.var .nx)) (.var .ny)) (.mul (.var .j) (.var .nx))) (.var .i)), .loop .d (.lit 0) (.var .dim)], .fits (.add (.mul (.var .n) (.var .dim)) (.var .d))⟩,
   ⟨"assembly.cpp", [284], [.eq .dim (.lit 3), .loop .i (.lit 0) (.var .nx), .loop .j (.lit 0) (.var .ny), .eq .n (.add (.add (.mul (.mul (.sub (.var .nz) (.lit 1)) (.var .nx)) (.var .ny)) (.mul (.var .j) (.var .nx))) (.var .i)), .loop .d (.lit 0) (.var .dim)], .fits (.add (.mul (.var .n) (.var .dim)) (.var .d))⟩,
   ⟨"assembly.cpp", [292], [.eq .dim (.lit 3), .loop .i (.lit 0) (.var .nx), .loop .k (.lit 1) (.sub (.var .nz) (.lit 1)), .eq .n (.add (.add (.mul (.mul (.var .k) (.var .nx)) (.var .ny)) (.mul (.lit 0) (.var .nx))) (.var .i)), .loop .d (.lit 0) (.var .dim)], .fits (.add (.mul (.var .n) (.var .dim)) (.var .d))⟩,
   ⟨"assembly.cpp", [300], [.eq .dim (.lit 3), .loop .i (.lit 0) (.var .nx), .loop .k (.lit 1) (.sub (.var .nz) (.lit 1)), .eq .n (.add (.add (.mul (.mul (.var .k) (.var .nx)) (.var .ny)) (.mul (.sub (.var .ny) (.lit 1)) (.var .nx))) (.var .i)), .loop .d (.lit 0) (.var .dim)], .fits (.add (.mul (.var .n) (.var .dim)) (.var .d))⟩,
   ⟨"assembly.cpp", [308], [.eq .dim (.lit 3), .loop .j (.lit 1) (.sub (.var .ny) (.lit 1)), .loop .k (.lit 1) (.sub (.var .nz) (.lit 1)), .eq .n (.add (.add (.mul (.mul (.var .k) (.var .nx)) (.var .ny)) (.mul (.var .j) (.var .nx))) (.lit 0)), .loop .d (.lit 0) (.var .dim)], .fits (.add (.mul (.var .n) (.var .dim)) (.var .d))⟩,
   ⟨"assembly.cpp", [316], [.eq .dim (.lit 3), .loop .j (.lit 1) (.sub (.var .ny) (.lit 1)), .loop .k (.lit 1) (.sub (.var .nz) (.lit 1)), .eq .n (.add (.add (.mul (.mul (.var .k) (.var .nx)) (.var .ny)) (.mul (.var .j) (.var .nx))) (.sub (.var .nx) (.lit 1))), .loop .d (.lit 0) (.var .dim)], .fits (.add (.mul (.var .n) (.var .dim)) (.var .d))⟩,
   ⟨"assembly.cpp", [373, 876, 932], [.eq .dim (.lit 2), .loop .ex (.lit 0) (.sub (.var .nx) (.lit 1)), .loop .ey (.lit 0) (.sub (.var .ny) (.lit 1))], .fits (.add (.add (.mul (.mul (.lit 0) (.sub (.var .nx) (.lit 1))) (.sub (.var .ny) (.lit 1))) (.mul (.var .ey) (.sub (.var .nx) (.lit 1)))) (.var .ex))⟩,
   ⟨"assembly.cpp", [405], [.eq .dim (.lit 2)], .fits (.mul (.mul (.mul (.var .npe) (.var .dim)) (.var .npe)) (.var .dim))⟩,
   ⟨"assembly.cpp", [420, 422, 424, 679, 681, 683, 1113, 1115, 1117], [.eq .dim (.lit 2), .loop .i (.lit 0) (.lit 4)], .fits (.mul (.var .i) (.var .dim))⟩,
   ⟨"assembly.cpp", [421, 423, 425, 680, 682, 684, 1114, 1116, 1118], [.eq .dim (.lit 2), .loop .i (.lit 0) (.lit 4)], .fits (.add (.mul (.var .i) (.var .dim)) (.lit 1))⟩,
   ⟨"assembly.cpp", [440], [.eq .dim (.lit 2), .loop .i (.lit 0) (.mul (.var .npe) (.var .dim)), .loop .j (.lit 0) (.mul (.var .npe) (.var .dim))], .fits (.add (.mul (.mul (.var .i) (.var .npe)) (.var .dim)) (.var .j))⟩,
   ⟨"assembly.cpp", [447, 537, 912, 978], [.eq .dim (.lit 3), .loop .ex (.lit 0) (.sub (.var .nx) (.lit 1)), .loop .ey (.lit 0) (.sub (.var .ny) (.lit 1)), .loop .ez (.lit 0) (.sub (.var .nz) (.lit 1))], .fits (.add (.add (.mul (.mul (.var .ez) (.sub (.var .nx) (.lit 1))) (.sub (.var .ny) (.lit 1))) (.mul (.var .ey) (.sub (.var .nx) (.lit 1)))) (.var .ex))⟩,
   ⟨"assembly.cpp", [457], [.eq .dim (.lit 3)], .fits (.mul (.mul (.mul (.var .npe) (.var .dim)) (.var .npe)) (.var .dim))⟩,
   ⟨"assembly.cpp", [506], [.eq .dim (.lit 3), .loop .i (.lit 0) (.mul (.var .npe) (.var .dim)), .loop .j (.lit 0) (.mul (.var .npe) (.var .dim))], .fits (.add (.mul (.mul (.var .i) (.var .npe)) (.var .dim)) (.var .j))⟩,
   ⟨"assembly.cpp", [632, 635, 638, 641, 644, 647], [.eq .dim (.lit 3), .loop .i (.lit 0) (.lit 8)], .fits (.mul (.var .i) (.var .dim))⟩,
   ⟨"assembly.cpp", [633, 636, 639, 642, 645, 648], [.eq .dim (.lit 3), .loop .i (.lit 0) (.lit 8)], .fits (.add (.mul (.var .i) (.var .dim)) (.lit 1))⟩,
   ⟨"assembly.cpp", [634, 637, 640, 643, 646, 649], [.eq .dim (.lit 3), .loop .i (.lit 0) (.lit 8)], .fits (.add (.mul (.var .i) (.var .dim)) (.lit 2))⟩,
   ⟨"assembly.cpp", [664], [.eq .dim (.lit 2)], .fits (.mul (.lit 2) (.lit 4))⟩,
   ⟨"assembly.cpp", [705], [.eq .dim (.lit 3)], .fits (.mul (.lit 3) (.lit 8))⟩,
   ⟨"assembly.cpp", [878, 879], [.eq .dim (.lit 2), .loop .ex (.lit 0) (.sub (.var .nx) (.lit 1)), .loop .ey (.lit 0) (.sub (.var .ny) (.lit 1)), .eq .e (.add (.add (.mul (.mul (.lit 0) (.sub (.var .nx) (.lit 1))) (.sub (.var .ny) (.lit 1))) (.mul (.var .ey) (.sub (.var .nx) (.lit 1)))) (.var .ex)), .loop .v (.lit 0) (.var .nvoi)], .fits (.add (.mul (.var .e) (.var .nvoi)) (.var .v))⟩,
   ⟨"assembly.cpp", [914, 915], [.eq .dim (.lit 3), .loop .ex (.lit 0) (.sub (.var .nx) (.lit 1)), .loop .ey (.lit 0) (.sub (.var .ny) (.lit 1)), .loop .ez (.lit 0) (.sub (.var .nz) (.lit 1)), .eq .e (.add (.add (.mul (.mul (.var .ez) (.sub (.var .nx) (.lit 1))) (.sub (.var .ny) (.lit 1))) (.mul (.var .ey) (.sub (.var .nx) (.lit 1)))) (.var .ex)), .loop .v (.lit 0) (.var .nvoi)], .fits (.add (.mul (.var .e) (.var .nvoi)) (.var .v))⟩,
   ⟨"assembly.cpp", [985, 992], [.eq .dim (.lit 3), .loop .ex (.lit 0) (.sub (.var .nx) (.lit 1)), .loop .ey (.lit 0) (.sub (.var .ny) (.lit 1)), .loop .ez (.lit 0) (.sub (.var .nz) (.lit 1)), .loop .gp (.lit 0) (.lit 8), .eq .e (.add (.add (.mul (.mul (.var .ez) (.sub (.var .nx) (.lit 1))) (.sub (.var .ny) (.lit 1))) (.mul (.var .ey) (.sub (.var .nx) (.lit 1)))) (.var .ex)), .loop .i (.lit 0) (.lit 6)], .fits (.add (.add (.mul (.mul (.var .e) (.lit 8)) (.lit 7)) (.mul (.var .gp) (.lit 7))) (.var .i))⟩,
   ⟨"assembly.cpp", [986, 993], [.eq .dim (.lit 3), .loop .ex (.lit 0) (.sub (.var .nx) (.lit 1)), .loop .ey (.lit 0) (.sub (.var .ny) (.lit 1)), .loop .ez (.lit 0) (.sub (.var .nz) (.lit 1)), .loop .gp (.lit 0) (.lit 8), .eq .e (.add (.add (.mul (.mul (.var .ez) (.sub (.var .nx) (.lit 1))) (.sub (.var .ny) (.lit 1))) (.mul (.var .ey) (.sub (.var .nx) (.lit 1)))) (.var .ex))], .fits (.add (.add (.mul (.mul (.var .e) (.lit 8)) (.lit 7)) (.mul (.var .gp) (.lit 7))) (.lit 6))⟩,
   ⟨"assembly.cpp", [1154], [.eq .dim (.lit 2), .loop .d (.lit 0) (.var .dim)], .fits (.add (.mul (.lit 0) (.var .dim)) (.var .d))⟩,
   ⟨"assembly.cpp", [1154], [.eq .dim (.lit 2), .loop .ex (.lit 0) (.sub (.var .nx) (.lit 1)), .loop .ey (.lit 0) (.sub (.var .ny) (.lit 1)), .eq .n0 (.add (.mul (.var .ey) (.var .nx)) (.var .ex)), .loop .d (.lit 0) (.var .dim)], .fits (.add (.mul (.var .n0) (.var .dim)) (.var .d))⟩,
   ⟨"assembly.cpp", [1155], [.eq .dim (.lit 2), .loop .d (.lit 0) (.var .dim)], .fits (.add (.mul (.lit 1) (.var .dim)) (.var .d))⟩,
   ⟨"assembly.cpp", [1155], [.eq .dim (.lit 2), .loop .ex (.lit 0) (.sub (.var .nx) (.lit 1)), .loop .ey (.lit 0) (.sub (.var .ny) (.lit 1)), .eq .n1 (.add (.add (.mul (.var .ey) (.var .nx)) (.var .ex)) (.lit 1)), .loop .d (.lit 0) (.var .dim)], .fits (.add (.mul (.var .n1) (.var .dim)) (.var .d))⟩,
   ⟨"assembly.cpp", [1156], [.eq .dim (.lit 2), .loop .d (.lit 0) (.var .dim)], .fits (.add (.mul (.lit 2) (.var .dim)) (.var .d))⟩,
   ⟨"assembly.cpp", [1156], [.eq .dim (.lit 2), .loop .ex (.lit 0) (.sub (.var .nx) (.lit 1)), .loop .ey (.lit 0) (.sub (.var .ny) (.lit 1)), .eq .n2 (.add (.add (.mul (.add (.var .ey) (.lit 1)) (.var .nx)) (.var .ex)) (.lit 1)), .loop .d (.lit 0) (.var .dim)], .fits (.add (.mul (.var .n2) (.var .dim)) (.var .d))⟩,
   ⟨"assembly.cpp", [1157], [.eq .dim (.lit 2), .loop .d (.lit 0) (.var .dim)], .fits (.add (.mul (.lit 3) (.var .dim)) (.var .d))⟩,
   ⟨"assembly.cpp", [1157], [.eq .dim (.lit 2), .loop .ex (.lit 0) (.sub (.var .nx) (.lit 1)), .loop .ey (.lit 0) (.sub (.var .ny) (.lit 1)), .eq .n3 (.add (.mul (.add (.var .ey) (.lit 1)) (.var .nx)) (.var .ex)), .loop .d (.lit 0) (.var .dim)], .fits (.add (.mul (.var .n3) (.var .dim)) (.var .d))⟩]

/-- Array accesses and arguments of /repo/src/assembly.cpp:29-1182, part 1. -/
def assemblyUses0 : List Site :=
  [⟨"assembly.cpp", [37, 46, 55, 64], [.eq .dim (.lit 2)], .index "eps" (.lit 0) (.var .nvoi)⟩,
   ⟨"assembly.cpp", [37, 38, 46, 47, 55, 56, 64, 65], [.eq .dim (.lit 2)], .index "eps" (.lit 2) (.var .nvoi)⟩,
   ⟨"assembly.cpp", [38, 47, 56, 65], [.eq .dim (.lit 2)], .index "eps" (.lit 1) (.var .nvoi)⟩,
   ⟨"assembly.cpp", [39], [.eq .dim (.lit 2), .loop .i (.lit 0) (.var .nx)], .index "u" (.mul (.var .i) (.var .dim)) (.mul (.var .nn) (.var .dim))⟩,
   ⟨"assembly.cpp", [40], [.eq .dim (.lit 2), .loop .i (.lit 0) (.var .nx)], .index "u" (.add (.mul (.var .i) (.var .dim)) (.lit 1)) (.mul (.var .nn) (.var .dim))⟩,
   ⟨"assembly.cpp", [48], [.eq .dim (.lit 2), .loop .i (.lit 0) (.var .nx)], .index "u" (.mul (.add (.var .i) (.mul (.sub (.var .ny) (.lit 1)) (.var .nx))) (.var .dim)) (.mul (.var .nn) (.var .dim))⟩,
   ⟨"assembly.cpp", [49], [.eq .dim (.lit 2), .loop .i (.lit 0) (.var .nx)], .index "u" (.add (.mul (.add (.var .i) (.mul (.sub (.var .ny) (.lit 1)) (.var .nx))) (.var .dim)) (.lit 1)) (.mul (.var .nn) (.var .dim))⟩,
   ⟨"assembly.cpp", [57], [.eq .dim (.lit 2), .loop .i (.lit 0) (.sub (.var .ny) (.lit 2))], .index "u" (.mul (.mul (.add (.var .i) (.lit 1)) (.var .nx)) (.var .dim)) (.mul (.var .nn) (.var .dim))⟩,
   ⟨"assembly.cpp", [58], [.eq .dim (.lit 2), .loop .i (.lit 0) (.sub (.var .ny) (.lit 2))], .index "u" (.add (.mul (.mul (.add (.var .i) (.lit 1)) (.var .nx)) (.var .dim)) (.lit 1)) (.mul (.var .nn) (.var .dim))⟩,
   ⟨"assembly.cpp", [66], [.eq .dim (.lit 2), .loop .i (.lit 0) (.sub (.var .ny) (.lit 2))], .index "u" (.mul (.sub (.mul (.add (.var .i) (.lit 2)) (.var .nx)) (.lit 1)) (.var .dim)) (.mul (.var .nn) (.var .dim))⟩,
   ⟨"assembly.cpp", [67], [.eq .dim (.lit 2), .loop .i (.lit 0) (.sub (.var .ny) (.lit 2))], .index "u" (.add (.mul (.sub (.mul (.add (.var .i) (.lit 2)) (.var .nx)) (.lit 1)) (.var .dim)) (.lit 1)) (.mul (.var .nn) (.var .dim))⟩,
   ⟨"assembly.cpp", [79, 94, 110, 126, 142, 158], [.eq .dim (.lit 3)], .index "eps" (.lit 0) (.var .nvoi)⟩,
   ⟨"assembly.cpp", [79, 80, 94, 95, 110, 111, 126, 127, 142, 143, 158, 159], [.eq .dim (.lit 3)], .index "eps" (.lit 3) (.var .nvoi)⟩,
   ⟨"assembly.cpp", [79, 81, 94, 96, 110, 112, 126, 128, 142, 144, 158, 160], [.eq .dim (.lit 3)], .index "eps" (.lit 4) (.var .nvoi)⟩,
   ⟨"assembly.cpp", [80, 95, 111, 127, 143, 159], [.eq .dim (.lit 3)], .index "eps" (.lit 1) (.var .nvoi)⟩,
   ⟨"assembly.cpp", [80, 81, 95, 96, 111, 112, 127, 128, 143, 144, 159, 160], [.eq .dim (.lit 3)], .index "eps" (.lit 5) (.var .nvoi)⟩,
   ⟨"assembly.cpp", [81, 96, 112, 128, 144, 160], [.eq .dim (.lit 3)], .index "eps" (.lit 2) (.var .nvoi)⟩,
   ⟨"assembly.cpp", [82], [.eq .dim (.lit 3), .loop .i (.lit 0) (.var .nx), .loop .j (.lit 0) (.var .ny), .eq .n (.add (.add (.mul (.mul (.lit 0) (.var .nx)) (.var .ny)) (.mul (.var .j) (.var .nx))) (.var .i))], .index "u" (.mul (.var .n) (.var .dim)) (.mul (.var .nn) (.var .dim))⟩,
   ⟨"assembly.cpp", [83], [.eq .dim (.lit 3), .loop .i (.lit 0) (.var .nx), .loop .j (.lit 0) (.var .ny), .eq .n (.add (.add (.mul (.mul (.lit 0) (.var .nx)) (.var .ny)) (.mul (.var .j) (.var .nx))) (.var .i))], .index "u" (.add (.mul (.var .n) (.var .dim)) (.lit 1)) (.mul (.var .nn) (.var .dim))⟩,
   ⟨"assembly.cpp", [84], [.eq .dim (.lit 3), .loop .i (.lit 0) (.var .nx), .loop .j (.lit 0) (.var .ny), .eq .n (.add (.add (.mul (.mul (.lit 0) (.var .nx)) (.var .ny)) (.mul (.var .j) (.var .nx))) (.var .i))], .index "u" (.add (.mul (.var .n) (.var .dim)) (.lit 2)) (.mul (.var .nn) (.var .dim))⟩,
   ⟨"assembly.cpp", [97], [.eq .dim (.lit 3), .loop .i (.lit 0) (.var .nx), .loop .j (.lit 0) (.var .ny), .eq .n (.add (.add (.mul (.mul (.sub (.var .nz) (.lit 1)) (.var .nx)) (.var .ny)) (.mul (.var .j) (.var .nx))) (.var .i))], .index "u" (.mul (.var .n) (.var .dim)) (.mul (.var .nn) (.var .dim))⟩,
   ⟨"assembly.cpp", [98], [.eq .dim (.lit 3), .loop .i (.lit 0) (.var .nx), .loop .j (.lit 0) (.var .ny), .eq .n (.add (.add (.mul (.mul (.sub (.var .nz) (.lit 1)) (.var .nx)) (.var .ny)) (.mul (.var .j) (.var .nx))) (.var .i))], .index "u" (.add (.mul (.var .n) (.var .dim)) (.lit 1)) (.mul (.var .nn) (.var .dim))⟩,
   ⟨"assembly.cpp", [99], [.eq .dim (.lit 3), .loop .i (.lit 0) (.var .nx), .loop .j (.lit 0) (.var .ny), .eq .n (.add (.add (.mul (.mul (.sub (.var .nz) (.lit 1)) (.var .nx)) (.var .ny)) (.mul (.var .j) (.var .nx))) (.var .i))], .index "u" (.add (.mul (.var .n) (.var .dim)) (.lit 2)) (.mul (.var .nn) (.var .dim))⟩,
   ⟨"assembly.cpp", [113], [.eq .dim (.lit 3), .loop .i (.lit 0) (.var .nx), .loop .k (.lit 1) (.sub (.var .nz) (.lit 1)), .eq .n (.add (.add (.mul (.mul (.var .k) (.var .nx)) (.var .ny)) (.mul (.lit 0) (.var .nx))) (.var .i))], .index "u" (.mul (.var .n) (.var .dim)) (.mul (.var .nn) (.var .dim))⟩,
   ⟨"assembly.cpp", [114], [.eq .dim (.lit 3), .loop .i (.lit 0) (.var .nx), .loop .k (.lit 1) (.sub (.var .nz) (.lit 1)), .eq .n (.add (.add (.mul (.mul (.var .k) (.var .nx)) (.var .ny)) (.mul (.lit 0) (.var .nx))) (.var .i))], .index "u" (.add (.mul (.var .n) (.var .dim)) (.lit 1)) (.mul (.var .nn) (.var .dim))⟩,
   ⟨"assembly.cpp", [115], [.eq .dim (.lit 3), .loop .i (.lit 0) (.var .nx), .loop .k (.lit 1) (.sub (.var .nz) (.lit 1)), .eq .n (.add (.add (.mul (.mul (.var .k) (.var .nx)) (.var .ny)) (.mul (.lit 0) (.var .nx))) (.var .i))], .index "u" (.add (.mul (.var .n) (.var .dim)) (.lit 2)) (.mul (.var .nn) (.var .dim))⟩,
   ⟨"assembly.cpp", [129], [.eq .dim (.lit 3), .loop .i (.lit 0) (.var .nx), .loop .k (.lit 1) (.sub (.var .nz) (.lit 1)), .eq .n (.add (.add (.mul (.mul (.var .k) (.var .nx)) (.var .ny)) (.mul (.sub (.var .ny) (.lit 1)) (.var .nx))) (.var .i))], .index "u" (.mul (.var .n) (.var .dim)) (.mul (.var .nn) (.var .dim))⟩,
   ⟨"assembly.cpp", [130], [.eq .dim (.lit 3), .loop .i (.lit 0) (.var .nx), .loop .k (.lit 1) (.sub (.var .nz) (.lit 1)), .eq .n (.add (.add (.mul (.mul (.var .k) (.var .nx)) (.var .ny)) (.mul (.sub (.var .ny) (.lit 1)) (.var .nx))) (.var .i))], .index "u" (.add (.mul (.var .n) (.var .dim)) (.lit 1)) (.mul (.var .nn) (.var .dim))⟩,
   ⟨"assembly.cpp", [131], [.eq .dim (.lit 3), .loop .i (.lit 0) (.var .nx), .loop .k (.lit 1) (.sub (.var .nz) (.lit 1)), .eq .n (.add (.add (.mul (.mul (.var .k) (.var .nx)) (.var .ny)) (.mul (.sub (.var .ny) (.lit 1)) (.var .nx))) (.var .i))], .index "u" (.add (.mul (.var .n) (.var .dim)) (.lit 2)) (.mul (.var .nn) (.var .dim))⟩,
   ⟨"assembly.cpp", [145], [.eq .dim (.lit 3), .loop .j (.lit 1) (.sub (.var .ny) (.lit 1)), .loop .k (.lit 1) (.sub (.var .nz) (.lit 1)), .eq .n (.add (.add (.mul (.mul (.var .k) (.var .nx)) (.var .ny)) (.mul (.var .j) (.var .nx))) (.lit 0))], .index "u" (.mul (.var .n) (.var .dim)) (.mul (.var .nn) (.var .dim))⟩,
   ⟨"assembly.cpp", [146], [.eq .dim (.lit 3), .loop .j (.lit 1) (.sub (.var .ny) (.lit 1)), .loop .k (.lit 1) (.sub (.var .nz) (.lit 1)), .eq .n (.add (.add (.mul (.mul (.var .k) (.var .nx)) (.var .ny)) (.mul (.var .j) (.var .nx))) (.lit 0))], .index "u" (.add (.mul (.var .n) (.var .dim)) (.lit 1)) (.mul (.var .nn) (.var .dim))⟩,
   ⟨"assembly.cpp", [147], [.eq .dim (.lit 3), .loop .j (.lit 1) (.sub (.var .ny) (.lit 1)), .loop .k (.lit 1) (.sub (.var .nz) (.lit 1)), .eq .n (.add (.add (.mul (.mul (.var .k) (.var .nx)) (.var .ny)) (.mul (.var .j) (.var .nx))) (.lit 0))], .index "u" (.add (.mul (.var .n) (.var .dim)) (.lit 2)) (.mul (.var .nn) (.var .dim))⟩,
   ⟨"assembly.cpp", [161], [.eq .dim (.lit 3), .loop .j (.lit 1) (.sub (.var .ny) (.lit 1)), .loop .k (.lit 1) (.sub (.var .nz) (.lit 1)), .eq .n (.add (.add (.mul (.mul (.var .k) (.var .nx)) (.var .ny)) (.mul (.var .j) (.var .nx))) (.sub (.var .nx) (.lit 1)))], .index "u" (.mul (.var .n) (.var .dim)) (.mul (.var .nn) (.var .dim))⟩,
   ⟨"assembly.cpp", [162], [.eq .dim (.lit 3), .loop .j (.lit 1) (.sub (.var .ny) (.lit 1)), .loop .k (.lit 1) (.sub (.var .nz) (.lit 1)), .eq .n (.add (.add (.mul (.mul (.var .k) (.var .nx)) (.var .ny)) (.mul (.var .j) (.var .nx))) (.sub (.var .nx) (.lit 1)))], .index "u" (.add (.mul (.var .n) (.var .dim)) (.lit 1)) (.mul (.var .nn) (.var .dim))⟩,
   ⟨"assembly.cpp", [163], [.eq .dim (.lit 3), .loop .j (.lit 1) (.sub (.var .ny) (.lit 1)), .loop .k (.lit 1) (.sub (.var .nz) (.lit 1)), .eq .n (.add (.add (.mul (.mul (.var .k) (.var .nx)) (.var .ny)) (.mul (.var .j) (.var .nx))) (.sub (.var .nx) (.lit 1)))], .index "u" (.add (.mul (.var .n) (.var .dim)) (.lit 2)) (.mul (.var .nn) (.var .dim))⟩,
   ⟨"assembly.cpp", [178, 323, 327], [.loop .i (.lit 0) (.mul (.var .nn) (.var .dim))], .index "b" (.var .i) (.mul (.var .nn) (.var .dim))⟩,
   ⟨"assembly.cpp", [192], [.eq .dim (.lit 2)], .index "index" (.lit 0) (.mul (.lit 3) (.lit 8))⟩,
   ⟨"assembly.cpp", [192], [.eq .dim (.lit 2), .loop .ex (.lit 0) (.sub (.var .nx) (.lit 1)), .loop .ey (.lit 0) (.sub (.var .ny) (.lit 1)), .eq .n0 (.add (.mul (.var .ey) (.var .nx)) (.var .ex))], .range (.mul (.var .n0) (.var .dim)) (.lit 0) (.mul (.var .nn) (.var .dim))⟩,
   ⟨"assembly.cpp", [193], [.eq .dim (.lit 2)], .index "index" (.lit 1) (.mul (.lit 3) (.lit 8))⟩,
   ⟨"assembly.cpp", [193], [.eq .dim (.lit 2), .loop .ex (.lit 0) (.sub (.var .nx) (.lit 1)), .loop .ey (.lit 0) (.sub (.var .ny) (.lit 1)), .eq .n0 (.add (.mul (.var .ey) (.var .nx)) (.var .ex))], .range (.add (.mul (.var .n0) (.var .dim)) (.lit 1)) (.lit 0) (.mul (.var .nn) (.var .dim))⟩,
   ⟨"assembly.cpp", [194], [.eq .dim (.lit 2)], .index "index" (.lit 2) (.mul (.lit 3) (.lit 8))⟩,
   ⟨"assembly.cpp", [194], [.eq .dim (.lit 2), .loop .ex (.lit 0) (.sub (.var .nx) (.lit 1)), .loop .ey (.lit 0) (.sub (.var .ny) (.lit 1)), .eq .n1 (.add (.add (.mul (.var .ey) (.var .nx)) (.var .ex)) (.lit 1))], .range (.mul (.var .n1) (.var .dim)) (.lit 0) (.mul (.var .nn) (.var .dim))⟩,
   ⟨"assembly.cpp", [195], [.eq .dim (.lit 2)], .index "index" (.lit 3) (.mul (.lit 3) (.lit 8))⟩,
   ⟨"assembly.cpp", [195], [.eq .dim (.lit 2), .loop .ex (.lit 0) (.sub (.var .nx) (.lit 1)), .loop .ey (.lit 0) (.sub (.var .ny) (.lit 1)), .eq .n1 (.add (.add (.mul (.var .ey) (.var .nx)) (.var .ex)) (.lit 1))], .range (.add (.mul (.var .n1) (.var .dim)) (.lit 1)) (.lit 0) (.mul (.var .nn) (.var .dim))⟩,
   ⟨"assembly.cpp", [196], [.eq .dim (.lit 2)], .index "index" (.lit 4) (.mul (.lit 3) (.lit 8))⟩,
   ⟨"assembly.cpp", [196], [.eq .dim (.lit 2), .loop .ex (.lit 0) (.sub (.var .nx) (.lit 1)), .loop .ey (.lit 0) (.sub (.var .ny) (.lit 1)), .eq .n2 (.add (.add (.mul (.add (.var .ey) (.lit 1)) (.var .nx)) (.var .ex)) (.lit 1))], .range (.mul (.var .n2) (.var .dim)) (.lit 0) (.mul (.var .nn) (.var .dim))⟩,
   ⟨"assembly.cpp", [197], [.eq .dim (.lit 2)], .index "index" (.lit 5) (.mul (.lit 3) (.lit 8))⟩,
   ⟨"assembly.cpp", [197], [.eq .dim (.lit 2), .loop .ex (.lit 0) (.sub (.var .nx) (.lit 1)), .loop .ey (.lit 0) (.sub (.var .ny) (.lit 1)), .eq .n2 (.add (.add (.mul (.add (.var .ey) (.lit 1)) (.var .nx)) (.var .ex)) (.lit 1))], .range (.add (.mul (.var .n2) (.var .dim)) (.lit 1)) (.lit 0) (.mul (.var .nn) (.var .dim))⟩,
   ⟨"assembly.cpp", [198], [.eq .dim (.lit 2)], .index "index" (.lit 6) (.mul (.lit 3) (.lit 8))⟩,
   ⟨"assembly.cpp", [198], [.eq .dim (.lit 2), .loop .ex (.lit 0) (.sub (.var .nx) (.lit 1)), .loop .ey (.lit 0) (.sub (.var .ny) (.lit 1)), .eq .n3 (.add (.mul (.add (.var .ey) (.lit 1)) (.var .nx)) (.var .ex))], .range (.mul (.var .n3) (.var .dim)) (.lit 0) (.mul (.var .nn) (.var .dim))⟩,
   ⟨"assembly.cpp", [199], [.eq .dim (.lit 2)], .index "index" (.lit 7) (.mul (.lit 3) (.lit 8))⟩,
   ⟨"assembly.cpp", [199], [.eq .dim (.lit 2), .loop .ex (.lit 0) (.sub (.var .nx) (.lit 1)), .loop .ey (.lit 0) (.sub (.var .ny) (.lit 1)), .eq .n3 (.add (.mul (.add (.var .ey) (.lit 1)) (.var .nx)) (.var .ex))], .range (.add (.mul (.var .n3) (.var .dim)) (.lit 1)) (.lit 0) (.mul (.var .nn) (.var .dim))⟩,
   ⟨"assembly.cpp", [201, 344, 688, 689, 746, 747, 807, 867, 868, 1092], [.eq .dim (.lit 2)], .range (.var .dim) (.lit 2) (.lit 3)⟩,
   ⟨"assembly.cpp", [201, 344, 688, 689, 746, 747, 807, 867, 868, 1092], [.eq .dim (.lit 2), .loop .ex (.lit 0) (.sub (.var .nx) (.lit 1))], .range (.var .ex) (.lit 0) (.sub (.var .nx) (.lit 1))⟩,
   ⟨"assembly.cpp", [201, 344, 688, 689, 746, 747, 807, 867, 868, 1092], [.eq .dim (.lit 2), .loop .ey (.lit 0) (.sub (.var .ny) (.lit 1))], .range (.var .ey) (.lit 0) (.sub (.var .ny) (.lit 1))⟩,
   ⟨"assembly.cpp", [201], [.eq .dim (.lit 2)], .extent "be" (.mul (.lit 2) (.lit 4)) (.mul (.lit 2) (.lit 4))⟩,
   ⟨"assembly.cpp", [206], [.eq .dim (.lit 2), .loop .i (.lit 0) (.mul (.var .npe) (.var .dim))], .index "index" (.var .i) (.mul (.lit 3) (.lit 8))⟩,
   ⟨"assembly.cpp", [206], [.eq .dim (.lit 2), .loop .index_i (.lit 0) (.mul (.var .nn) (.var .dim))], .index "b" (.var .index_i) (.mul (.var .nn) (.var .dim))⟩,
   ⟨"assembly.cpp", [206, 694], [.eq .dim (.lit 2), .loop .i (.lit 0) (.mul (.var .npe) (.var .dim))], .index "be" (.var .i) (.mul (.lit 2) (.lit 4))⟩,
   ⟨"assembly.cpp", [215], [.eq .dim (.lit 2), .loop .i (.lit 0) (.var .nx), .loop .d (.lit 0) (.var .dim)], .index "b" (.add (.mul (.var .i) (.var .dim)) (.var .d)) (.mul (.var .nn) (.var .dim))⟩]

/-- Array accesses and arguments of /repo/src/assembly.cpp:29-1182, part 2. -/
def assemblyUses1 : List Site :=
  [⟨"assembly.cpp", [220], [.eq .dim (.lit 2), .loop .i (.lit 0) (.var .nx), .loop .d (.lit 0) (.var .dim)], .index "b" (.add (.mul (.add (.var .i) (.mul (.sub (.var .ny) (.lit 1)) (.var .nx))) (.var .dim)) (.var .d)) (.mul (.var .nn) (.var .dim))⟩,
   ⟨"assembly.cpp", [225], [.eq .dim (.lit 2), .loop .i (.lit 0) (.sub (.var .ny) (.lit 2)), .loop .d (.lit 0) (.var .dim)], .index "b" (.add (.mul (.mul (.add (.var .i) (.lit 1)) (.var .nx)) (.var .dim)) (.var .d)) (.mul (.var .nn) (.var .dim))⟩,
   ⟨"assembly.cpp", [230], [.eq .dim (.lit 2), .loop .i (.lit 0) (.sub (.var .ny) (.lit 2)), .loop .d (.lit 0) (.var .dim)], .index "b" (.add (.mul (.sub (.mul (.add (.var .i) (.lit 2)) (.var .nx)) (.lit 1)) (.var .dim)) (.var .d)) (.mul (.var .nn) (.var .dim))⟩,
   ⟨"assembly.cpp", [249], [.eq .dim (.lit 3), .loop .d (.lit 0) (.var .dim)], .index "index" (.add (.mul (.lit 0) (.var .dim)) (.var .d)) (.mul (.lit 3) (.lit 8))⟩,
   ⟨"assembly.cpp", [249], [.eq .dim (.lit 3), .loop .ex (.lit 0) (.sub (.var .nx) (.lit 1)), .loop .ey (.lit 0) (.sub (.var .ny) (.lit 1)), .loop .ez (.lit 0) (.sub (.var .nz) (.lit 1)), .eq .n0 (.add (.add (.mul (.var .ez) (.mul (.var .nx) (.var .ny))) (.mul (.var .ey) (.var .nx))) (.var .ex)), .loop .d (.lit 0) (.var .dim)], .range (.add (.mul (.var .n0) (.var .dim)) (.var .d)) (.lit 0) (.mul (.var .nn) (.var .dim))⟩,
   ⟨"assembly.cpp", [250], [.eq .dim (.lit 3), .loop .d (.lit 0) (.var .dim)], .index "index" (.add (.mul (.lit 1) (.var .dim)) (.var .d)) (.mul (.lit 3) (.lit 8))⟩,
   ⟨"assembly.cpp", [250], [.eq .dim (.lit 3), .loop .ex (.lit 0) (.sub (.var .nx) (.lit 1)), .loop .ey (.lit 0) (.sub (.var .ny) (.lit 1)), .loop .ez (.lit 0) (.sub (.var .nz) (.lit 1)), .eq .n1 (.add (.add (.add (.mul (.var .ez) (.mul (.var .nx) (.var .ny))) (.mul (.var .ey) (.var .nx))) (.var .ex)) (.lit 1)), .loop .d (.lit 0) (.var .dim)], .range (.add (.mul (.var .n1) (.var .dim)) (.var .d)) (.lit 0) (.mul (.var .nn) (.var .dim))⟩,
   ⟨"assembly.cpp", [251], [.eq .dim (.lit 3), .loop .d (.lit 0) (.var .dim)], .index "index" (.add (.mul (.lit 2) (.var .dim)) (.var .d)) (.mul (.lit 3) (.lit 8))⟩,
   ⟨"assembly.cpp", [251], [.eq .dim (.lit 3), .loop .ex (.lit 0) (.sub (.var .nx) (.lit 1)), .loop .ey (.lit 0) (.sub (.var .ny) (.lit 1)), .loop .ez (.lit 0) (.sub (.var .nz) (.lit 1)), .eq .n2 (.add (.add (.add (.mul (.var .ez) (.mul (.var .nx) (.var .ny))) (.mul (.add (.var .ey) (.lit 1)) (.var .nx))) (.var .ex)) (.lit 1)), .loop .d (.lit 0) (.var .dim)], .range (.add (.mul (.var .n2) (.var .dim)) (.var .d)) (.lit 0) (.mul (.var .nn) (.var .dim))⟩,
   ⟨"assembly.cpp", [252], [.eq .dim (.lit 3), .loop .d (.lit 0) (.var .dim)], .index "index" (.add (.mul (.lit 3) (.var .dim)) (.var .d)) (.mul (.lit 3) (.lit 8))⟩,
   ⟨"assembly.cpp", [252], [.eq .dim (.lit 3), .loop .ex (.lit 0) (.sub (.var .nx) (.lit 1)), .loop .ey (.lit 0) (.sub (.var .ny) (.lit 1)), .loop .ez (.lit 0) (.sub (.var .nz) (.lit 1)), .eq .n3 (.add (.add (.mul (.var .ez) (.mul (.var .nx) (.var .ny))) (.mul (.add (.var .ey) (.lit 1)) (.var .nx))) (.var .ex)), .loop .d (.lit 0) (.var .dim)], .range (.add (.mul (.var .n3) (.var .dim)) (.var .d)) (.lit 0) (.mul (.var .nn) (.var .dim))⟩,
   ⟨"assembly.cpp", [253], [.eq .dim (.lit 3), .loop .d (.lit 0) (.var .dim)], .index "index" (.add (.mul (.lit 4) (.var .dim)) (.var .d)) (.mul (.lit 3) (.lit 8))⟩,
   ⟨"assembly.cpp", [253], [.eq .dim (.lit 3), .loop .ex (.lit 0) (.sub (.var .nx) (.lit 1)), .loop .ey (.lit 0) (.sub (.var .ny) (.lit 1)), .loop .ez (.lit 0) (.sub (.var .nz) (.lit 1)), .eq .n0 (.add (.add (.mul (.var .ez) (.mul (.var .nx) (.var .ny))) (.mul (.var .ey) (.var .nx))) (.var .ex)), .eq .n4 (.add (.var .n0) (.mul (.var .nx) (.var .ny))), .loop .d (.lit 0) (.var .dim)], .range (.add (.mul (.var .n4) (.var .dim)) (.var .d)) (.lit 0) (.mul (.var .nn) (.var .dim))⟩,
   ⟨"assembly.cpp", [254], [.eq .dim (.lit 3), .loop .d (.lit 0) (.var .dim)], .index "index" (.add (.mul (.lit 5) (.var .dim)) (.var .d)) (.mul (.lit 3) (.lit 8))⟩,
   ⟨"assembly.cpp", [254], [.eq .dim (.lit 3), .loop .ex (.lit 0) (.sub (.var .nx) (.lit 1)), .loop .ey (.lit 0) (.sub (.var .ny) (.lit 1)), .loop .ez (.lit 0) (.sub (.var .nz) (.lit 1)), .eq .n1 (.add (.add (.add (.mul (.var .ez) (.mul (.var .nx) (.var .ny))) (.mul (.var .ey) (.var .nx))) (.var .ex)) (.lit 1)), .eq .n5 (.add (.var .n1) (.mul (.var .nx) (.var .ny))), .loop .d (.lit 0) (.var .dim)], .range (.add (.mul (.var .n5) (.var .dim)) (.var .d)) (.lit 0) (.mul (.var .nn) (.var .dim))⟩,
   ⟨"assembly.cpp", [255], [.eq .dim (.lit 3), .loop .d (.lit 0) (.var .dim)], .index "index" (.add (.mul (.lit 6) (.var .dim)) (.var .d)) (.mul (.lit 3) (.lit 8))⟩,
   ⟨"assembly.cpp", [255], [.eq .dim (.lit 3), .loop .ex (.lit 0) (.sub (.var .nx) (.lit 1)), .loop .ey (.lit 0) (.sub (.var .ny) (.lit 1)), .loop .ez (.lit 0) (.sub (.var .nz) (.lit 1)), .eq .n2 (.add (.add (.add (.mul (.var .ez) (.mul (.var .nx) (.var .ny))) (.mul (.add (.var .ey) (.lit 1)) (.var .nx))) (.var .ex)) (.lit 1)), .eq .n6 (.add (.var .n2) (.mul (.var .nx) (.var .ny))), .loop .d (.lit 0) (.var .dim)], .range (.add (.mul (.var .n6) (.var .dim)) (.var .d)) (.lit 0) (.mul (.var .nn) (.var .dim))⟩,
   ⟨"assembly.cpp", [256], [.eq .dim (.lit 3), .loop .d (.lit 0) (.var .dim)], .index "index" (.add (.mul (.lit 7) (.var .dim)) (.var .d)) (.mul (.lit 3) (.lit 8))⟩,
   ⟨"assembly.cpp", [256], [.eq .dim (.lit 3), .loop .ex (.lit 0) (.sub (.var .nx) (.lit 1)), .loop .ey (.lit 0) (.sub (.var .ny) (.lit 1)), .loop .ez (.lit 0) (.sub (.var .nz) (.lit 1)), .eq .n3 (.add (.add (.mul (.var .ez) (.mul (.var .nx) (.var .ny))) (.mul (.add (.var .ey) (.lit 1)) (.var .nx))) (.var .ex)), .eq .n7 (.add (.var .n3) (.mul (.var .nx) (.var .ny))), .loop .d (.lit 0) (.var .dim)], .range (.add (.mul (.var .n7) (.var .dim)) (.var .d)) (.lit 0) (.mul (.var .nn) (.var .dim))⟩,
   ⟨"assembly.cpp", [259, 356, 467, 469, 471, 492, 515, 526, 538, 575, 576, 583, 710, 713, 714, 773, 774, 830, 902, 903, 988, 1018, 1019, 1133, 1136], [.eq .dim (.lit 3)], .range (.var .dim) (.lit 3) (.lit 4)⟩,
   ⟨"assembly.cpp", [259, 356, 467, 469, 471, 515, 526, 538, 575, 576, 583, 713, 714, 773, 774, 830, 902, 903, 1133], [.eq .dim (.lit 3), .loop .ex (.lit 0) (.sub (.var .nx) (.lit 1))], .range (.var .ex) (.lit 0) (.sub (.var .nx) (.lit 1))⟩,
   ⟨"assembly.cpp", [259, 356, 467, 469, 471, 515, 526, 538, 575, 576, 583, 713, 714, 773, 774, 830, 902, 903, 1133], [.eq .dim (.lit 3), .loop .ey (.lit 0) (.sub (.var .ny) (.lit 1))], .range (.var .ey) (.lit 0) (.sub (.var .ny) (.lit 1))⟩,
   ⟨"assembly.cpp", [259, 356, 467, 469, 471, 515, 526, 538, 575, 576, 583, 713, 714, 773, 774, 830, 902, 903, 1133], [.eq .dim (.lit 3), .loop .ez (.lit 0) (.sub (.var .nz) (.lit 1))], .range (.var .ez) (.lit 0) (.sub (.var .nz) (.lit 1))⟩,
   ⟨"assembly.cpp", [259], [.eq .dim (.lit 3)], .extent "be" (.mul (.lit 3) (.lit 8)) (.mul (.lit 3) (.lit 8))⟩,
   ⟨"assembly.cpp", [264], [.eq .dim (.lit 3), .loop .i (.lit 0) (.mul (.var .npe) (.var .dim))], .index "index" (.var .i) (.mul (.lit 3) (.lit 8))⟩,
   ⟨"assembly.cpp", [264], [.eq .dim (.lit 3), .loop .index_i (.lit 0) (.mul (.var .nn) (.var .dim))], .index "b" (.var .index_i) (.mul (.var .nn) (.var .dim))⟩,
   ⟨"assembly.cpp", [264, 719], [.eq .dim (.lit 3), .loop .i (.lit 0) (.mul (.var .npe) (.var .dim))], .index "be" (.var .i) (.mul (.lit 3) (.lit 8))⟩,
   ⟨"assembly.cpp", [276], [.eq .dim (.lit 3), .loop .i (.lit 0) (.var .nx), .loop .j (.lit 0) (.var .ny), .eq .n (.add (.add (.mul (.mul (.lit 0) (.var .nx)) (.var .ny)) (.mul (.var .j) (.var .nx))) (.var .i)), .loop .d (.lit 0) (.var .dim)], .index "b" (.add (.mul (.var .n) (.var .dim)) (.var .d)) (.mul (.var .nn) (.var .dim))⟩,
   ⟨"assembly.cpp", [284], [.eq .dim (.lit 3), .loop .i (.lit 0) (.var .nx), .loop .j (.lit 0) (.var .ny), .eq .n (.add (.add (.mul (.mul (.sub (.var .nz) (.lit 1)) (.var .nx)) (.var .ny)) (.mul (.var .j) (.var .nx))) (.var .i)), .loop .d (.lit 0) (.var .dim)], .index "b" (.add (.mul (.var .n) (.var .dim)) (.var .d)) (.mul (.var .nn) (.var .dim))⟩,
   ⟨"assembly.cpp", [292], [.eq .dim (.lit 3), .loop .i (.lit 0) (.var .nx), .loop .k (.lit 1) (.sub (.var .nz) (.lit 1)), .eq .n (.add (.add (.mul (.mul (.var .k) (.var .nx)) (.var .ny)) (.mul (.lit 0) (.var .nx))) (.var .i)), .loop .d (.lit 0) (.var .dim)], .index "b" (.add (.mul (.var .n) (.var .dim)) (.var .d)) (.mul (.var .nn) (.var .dim))⟩,
   ⟨"assembly.cpp", [300], [.eq .dim (.lit 3), .loop .i (.lit 0) (.var .nx), .loop .k (.lit 1) (.sub (.var .nz) (.lit 1)), .eq .n (.add (.add (.mul (.mul (.var .k) (.var .nx)) (.var .ny)) (.mul (.sub (.var .ny) (.lit 1)) (.var .nx))) (.var .i)), .loop .d (.lit 0) (.var .dim)], .index "b" (.add (.mul (.var .n) (.var .dim)) (.var .d)) (.mul (.var .nn) (.var .dim))⟩,
   ⟨"assembly.cpp", [308], [.eq .dim (.lit 3), .loop .j (.lit 1) (.sub (.var .ny) (.lit 1)), .loop .k (.lit 1) (.sub (.var .nz) (.lit 1)), .eq .n (.add (.add (.mul (.mul (.var .k) (.var .nx)) (.var .ny)) (.mul (.var .j) (.var .nx))) (.lit 0)), .loop .d (.lit 0) (.var .dim)], .index "b" (.add (.mul (.var .n) (.var .dim)) (.var .d)) (.mul (.var .nn) (.var .dim))⟩,
   ⟨"assembly.cpp", [316], [.eq .dim (.lit 3), .loop .j (.lit 1) (.sub (.var .ny) (.lit 1)), .loop .k (.lit 1) (.sub (.var .nz) (.lit 1)), .eq .n (.add (.add (.mul (.mul (.var .k) (.var .nx)) (.var .ny)) (.mul (.var .j) (.var .nx))) (.sub (.var .nx) (.lit 1))), .loop .d (.lit 0) (.var .dim)], .index "b" (.add (.mul (.var .n) (.var .dim)) (.var .d)) (.mul (.var .nn) (.var .dim))⟩,
   ⟨"assembly.cpp", [344], [.eq .dim (.lit 2)], .extent "Ae" (.mul (.mul (.mul (.lit 2) (.lit 4)) (.lit 2)) (.lit 4)) (.mul (.mul (.mul (.lit 2) (.lit 4)) (.lit 2)) (.lit 4))⟩,
   ⟨"assembly.cpp", [356], [.eq .dim (.lit 3)], .extent "Ae" (.mul (.mul (.mul (.lit 3) (.lit 8)) (.lit 3)) (.lit 8)) (.mul (.mul (.mul (.lit 3) (.lit 8)) (.lit 3)) (.lit 8))⟩,
   ⟨"assembly.cpp", [376, 935], [.eq .dim (.lit 2), .loop .ex (.lit 0) (.sub (.var .nx) (.lit 1)), .loop .ey (.lit 0) (.sub (.var .ny) (.lit 1)), .eq .e (.add (.add (.mul (.mul (.lit 0) (.sub (.var .nx) (.lit 1))) (.sub (.var .ny) (.lit 1))) (.mul (.var .ey) (.sub (.var .nx) (.lit 1)))) (.var .ex))], .range (.var .e) (.lit 0) (.var .nelem)⟩,
   ⟨"assembly.cpp", [382, 383, 384, 385, 388, 941, 942, 943, 944, 947], [.eq .dim (.lit 2)], .index "ctan" (.lit 0) (.lit 3)⟩,
   ⟨"assembly.cpp", [383, 385, 386, 387, 389, 942, 944, 945, 946, 948], [.eq .dim (.lit 2)], .index "ctan" (.lit 1) (.lit 3)⟩,
   ⟨"assembly.cpp", [384, 387, 388, 389, 390, 943, 946, 947, 948, 949], [.eq .dim (.lit 2)], .index "ctan" (.lit 2) (.lit 3)⟩,
   ⟨"assembly.cpp", [394, 432, 952], [.eq .dim (.lit 2), .loop .i (.lit 0) (.var .nvoi)], .index "ctan" (.var .i) (.lit 3)⟩,
   ⟨"assembly.cpp", [394, 952], [.eq .dim (.lit 2), .loop .j (.lit 0) (.var .nvoi)], .index "ctan" (.var .j) (.lit 3)⟩,
   ⟨"assembly.cpp", [406], [.eq .dim (.lit 2), .loop .i (.lit 0) (.mul (.mul (.mul (.var .npe) (.var .dim)) (.var .npe)) (.var .dim))], .index "Ae" (.var .i) (.mul (.mul (.mul (.lit 2) (.lit 4)) (.lit 2)) (.lit 4))⟩,
   ⟨"assembly.cpp", [410, 411, 669, 670, 1103, 1104], [.eq .dim (.lit 2)], .index "dsh" (.lit 0) (.lit 4)⟩,
   ⟨"assembly.cpp", [410, 412, 414, 416, 420, 425, 669, 671, 673, 675, 679, 684, 1103, 1105, 1107, 1109, 1113, 1118], [.eq .dim (.lit 2)], .index "dsh" (.lit 0) (.lit 2)⟩,
   ⟨"assembly.cpp", [410, 411, 412, 413, 414, 415, 416, 417, 669, 670, 671, 672, 673, 674, 675, 676, 1103, 1104, 1105, 1106, 1107, 1108, 1109, 1110], [.eq .dim (.lit 2), .loop .gp (.lit 0) (.lit 4)], .index "xg" (.var .gp) (.lit 4)⟩,
   ⟨"assembly.cpp", [410, 412, 414, 416, 669, 671, 673, 675, 1103, 1105, 1107, 1109], [.eq .dim (.lit 2)], .index "xg" (.lit 1) (.lit 2)⟩,
   ⟨"assembly.cpp", [411, 413, 415, 417, 423, 424, 670, 672, 674, 676, 682, 683, 1104, 1106, 1108, 1110, 1116, 1117], [.eq .dim (.lit 2)], .index "dsh" (.lit 1) (.lit 2)⟩,
   ⟨"assembly.cpp", [411, 413, 415, 417, 670, 672, 674, 676, 1104, 1106, 1108, 1110], [.eq .dim (.lit 2)], .index "xg" (.lit 0) (.lit 2)⟩,
   ⟨"assembly.cpp", [412, 413, 671, 672, 1105, 1106], [.eq .dim (.lit 2)], .index "dsh" (.lit 1) (.lit 4)⟩,
   ⟨"assembly.cpp", [414, 415, 673, 674, 1107, 1108], [.eq .dim (.lit 2)], .index "dsh" (.lit 2) (.lit 4)⟩,
   ⟨"assembly.cpp", [416, 417, 675, 676, 1109, 1110], [.eq .dim (.lit 2)], .index "dsh" (.lit 3) (.lit 4)⟩,
   ⟨"assembly.cpp", [420, 421], [.eq .dim (.lit 2)], .index "b_mat" (.lit 0) (.lit 3)⟩,
   ⟨"assembly.cpp", [420, 422, 424], [.eq .dim (.lit 2), .loop .i (.lit 0) (.lit 4)], .index "b_mat" (.mul (.var .i) (.var .dim)) (.lit 8)⟩,
   ⟨"assembly.cpp", [420, 423, 424, 425, 679, 682, 683, 684, 1113, 1116, 1117, 1118], [.eq .dim (.lit 2), .loop .i (.lit 0) (.lit 4)], .index "dsh" (.var .i) (.lit 4)⟩,
   ⟨"assembly.cpp", [421, 423, 425], [.eq .dim (.lit 2), .loop .i (.lit 0) (.lit 4)], .index "b_mat" (.add (.mul (.var .i) (.var .dim)) (.lit 1)) (.lit 8)⟩,
   ⟨"assembly.cpp", [422, 423], [.eq .dim (.lit 2)], .index "b_mat" (.lit 1) (.lit 3)⟩,
   ⟨"assembly.cpp", [424, 425], [.eq .dim (.lit 2)], .index "b_mat" (.lit 2) (.lit 3)⟩,
   ⟨"assembly.cpp", [430, 432], [.eq .dim (.lit 2), .loop .i (.lit 0) (.var .nvoi)], .index "cxb" (.var .i) (.lit 3)⟩,
   ⟨"assembly.cpp", [430, 432, 440], [.eq .dim (.lit 2), .loop .j (.lit 0) (.mul (.var .npe) (.var .dim))], .index "cxb" (.var .j) (.lit 8)⟩,
   ⟨"assembly.cpp", [432], [.eq .dim (.lit 2), .loop .k (.lit 0) (.var .nvoi)], .index "ctan" (.var .k) (.lit 3)⟩]

/-- Array accesses and arguments of /repo/src/assembly.cpp:29-1182, part 3. -/
def assemblyUses2 : List Site :=
  [⟨"assembly.cpp", [432], [.eq .dim (.lit 2), .loop .k (.lit 0) (.var .nvoi)], .index "b_mat" (.var .k) (.lit 3)⟩,
   ⟨"assembly.cpp", [432], [.eq .dim (.lit 2), .loop .j (.lit 0) (.mul (.var .npe) (.var .dim))], .index "b_mat" (.var .j) (.lit 8)⟩,
   ⟨"assembly.cpp", [440], [.eq .dim (.lit 2), .loop .i (.lit 0) (.mul (.var .npe) (.var .dim)), .loop .j (.lit 0) (.mul (.var .npe) (.var .dim))], .index "Ae" (.add (.mul (.mul (.var .i) (.var .npe)) (.var .dim)) (.var .j)) (.mul (.mul (.mul (.lit 2) (.lit 4)) (.lit 2)) (.lit 4))⟩,
   ⟨"assembly.cpp", [440], [.eq .dim (.lit 2), .loop .m (.lit 0) (.var .nvoi)], .index "b_mat" (.var .m) (.lit 3)⟩,
   ⟨"assembly.cpp", [440], [.eq .dim (.lit 2), .loop .i (.lit 0) (.mul (.var .npe) (.var .dim))], .index "b_mat" (.var .i) (.lit 8)⟩,
   ⟨"assembly.cpp", [440], [.eq .dim (.lit 2), .loop .m (.lit 0) (.var .nvoi)], .index "cxb" (.var .m) (.lit 3)⟩,
   ⟨"assembly.cpp", [449, 541, 980], [.eq .dim (.lit 3), .loop .ex (.lit 0) (.sub (.var .nx) (.lit 1)), .loop .ey (.lit 0) (.sub (.var .ny) (.lit 1)), .loop .ez (.lit 0) (.sub (.var .nz) (.lit 1)), .eq .e (.add (.add (.mul (.mul (.var .ez) (.sub (.var .nx) (.lit 1))) (.sub (.var .ny) (.lit 1))) (.mul (.var .ey) (.sub (.var .nx) (.lit 1)))) (.var .ex))], .range (.var .e) (.lit 0) (.var .nelem)⟩,
   ⟨"assembly.cpp", [458], [.eq .dim (.lit 3), .loop .i (.lit 0) (.mul (.mul (.mul (.var .npe) (.var .dim)) (.var .npe)) (.var .dim))], .index "Ae" (.var .i) (.mul (.mul (.mul (.lit 3) (.lit 8)) (.lit 3)) (.lit 8))⟩,
   ⟨"assembly.cpp", [467, 469, 471, 492, 515, 526, 538, 575, 576, 583, 710, 713, 714, 773, 774, 830, 902, 903, 1136], [.eq .dim (.lit 3), .loop .gp (.lit 0) (.lit 8)], .range (.var .gp) (.lit 0) (.lit 8)⟩,
   ⟨"assembly.cpp", [467, 469, 471], [.eq .dim (.lit 3)], .extent "ctan" (.lit 6) (.lit 6)⟩,
   ⟨"assembly.cpp", [477, 529, 545, 586], [.eq .dim (.lit 3), .loop .i (.lit 0) (.lit 6)], .index "ctan" (.var .i) (.lit 6)⟩,
   ⟨"assembly.cpp", [477, 529, 545, 586], [.eq .dim (.lit 3), .loop .j (.lit 0) (.lit 6)], .index "ctan" (.var .j) (.lit 6)⟩,
   ⟨"assembly.cpp", [481, 484, 549, 552], [.eq .dim (.lit 3), .loop .i (.lit 0) (.lit 3)], .index "ctan" (.var .i) (.lit 6)⟩,
   ⟨"assembly.cpp", [481, 549], [.eq .dim (.lit 3), .loop .j (.lit 0) (.lit 3)], .index "ctan" (.var .j) (.lit 6)⟩,
   ⟨"assembly.cpp", [487, 555], [.eq .dim (.lit 3), .loop .i (.lit 3) (.lit 6)], .index "ctan" (.var .i) (.lit 6)⟩,
   ⟨"assembly.cpp", [492, 710, 1136], [.eq .dim (.lit 3)], .extent "bmat" (.lit 6) (.lit 6)⟩,
   ⟨"assembly.cpp", [492, 710, 1136], [.eq .dim (.lit 3)], .extent "bmat" (.mul (.lit 3) (.lit 8)) (.mul (.lit 3) (.lit 8))⟩,
   ⟨"assembly.cpp", [496, 498], [.eq .dim (.lit 3), .loop .i (.lit 0) (.var .nvoi)], .index "cxb" (.var .i) (.lit 6)⟩,
   ⟨"assembly.cpp", [496, 498, 506], [.eq .dim (.lit 3), .loop .j (.lit 0) (.mul (.var .npe) (.var .dim))], .index "cxb" (.var .j) (.mul (.lit 3) (.lit 8))⟩,
   ⟨"assembly.cpp", [498], [.eq .dim (.lit 3), .loop .i (.lit 0) (.var .nvoi)], .index "ctan" (.var .i) (.lit 6)⟩,
   ⟨"assembly.cpp", [498], [.eq .dim (.lit 3), .loop .k (.lit 0) (.var .nvoi)], .index "ctan" (.var .k) (.lit 6)⟩,
   ⟨"assembly.cpp", [498], [.eq .dim (.lit 3), .loop .k (.lit 0) (.var .nvoi)], .index "bmat" (.var .k) (.lit 6)⟩,
   ⟨"assembly.cpp", [498], [.eq .dim (.lit 3), .loop .j (.lit 0) (.mul (.var .npe) (.var .dim))], .index "bmat" (.var .j) (.mul (.lit 3) (.lit 8))⟩,
   ⟨"assembly.cpp", [506], [.eq .dim (.lit 3), .loop .i (.lit 0) (.mul (.var .npe) (.var .dim)), .loop .j (.lit 0) (.mul (.var .npe) (.var .dim))], .index "Ae" (.add (.mul (.mul (.var .i) (.var .npe)) (.var .dim)) (.var .j)) (.mul (.mul (.mul (.lit 3) (.lit 8)) (.lit 3)) (.lit 8))⟩,
   ⟨"assembly.cpp", [506], [.eq .dim (.lit 3), .loop .m (.lit 0) (.var .nvoi)], .index "bmat" (.var .m) (.lit 6)⟩,
   ⟨"assembly.cpp", [506, 719, 1141], [.eq .dim (.lit 3), .loop .i (.lit 0) (.mul (.var .npe) (.var .dim))], .index "bmat" (.var .i) (.mul (.lit 3) (.lit 8))⟩,
   ⟨"assembly.cpp", [506], [.eq .dim (.lit 3), .loop .m (.lit 0) (.var .nvoi)], .index "cxb" (.var .m) (.lit 6)⟩,
   ⟨"assembly.cpp", [515, 575, 576], [.eq .dim (.lit 3)], .extent "strain_0" (.lit 6) (.lit 6)⟩,
   ⟨"assembly.cpp", [519, 580], [.eq .dim (.lit 3), .loop .j (.lit 0) (.lit 6)], .index "strain_pert" (.var .j) (.lit 6)⟩,
   ⟨"assembly.cpp", [521, 522], [.eq .dim (.lit 3), .loop .i (.lit 0) (.lit 6)], .index "strain_0" (.var .i) (.lit 6)⟩,
   ⟨"assembly.cpp", [522, 524, 529, 582], [.eq .dim (.lit 3), .loop .i (.lit 0) (.lit 6)], .index "strain_pert" (.var .i) (.lit 6)⟩,
   ⟨"assembly.cpp", [526, 583], [.eq .dim (.lit 3)], .extent "strain_pert" (.lit 6) (.lit 6)⟩,
   ⟨"assembly.cpp", [526, 583], [.eq .dim (.lit 3)], .extent "stress_pert" (.lit 6) (.lit 6)⟩,
   ⟨"assembly.cpp", [529, 586], [.eq .dim (.lit 3), .loop .j (.lit 0) (.lit 6)], .index "stress_pert" (.var .j) (.lit 6)⟩,
   ⟨"assembly.cpp", [538], [.eq .dim (.lit 3)], .extent "strain" (.lit 6) (.lit 6)⟩,
   ⟨"assembly.cpp", [576], [.eq .dim (.lit 3)], .extent "stress_0" (.lit 6) (.lit 6)⟩,
   ⟨"assembly.cpp", [580], [.eq .dim (.lit 3), .loop .j (.lit 0) (.lit 6)], .index "strain_0" (.var .j) (.lit 6)⟩,
   ⟨"assembly.cpp", [586], [.eq .dim (.lit 3), .loop .j (.lit 0) (.lit 6)], .index "stress_0" (.var .j) (.lit 6)⟩,
   ⟨"assembly.cpp", [606, 607, 608], [.eq .dim (.lit 3)], .index "dsh" (.lit 0) (.lit 8)⟩,
   ⟨"assembly.cpp", [606, 609, 612, 615, 618, 621, 624, 627, 632, 642, 646], [.eq .dim (.lit 3)], .index "dsh" (.lit 0) (.lit 3)⟩,
   ⟨"assembly.cpp", [606, 607, 608, 609, 610, 611, 612, 613, 614, 615, 616, 617, 618, 619, 620, 621, 622, 623, 624, 625, 626, 627, 628, 629], [.eq .dim (.lit 3), .loop .gp (.lit 0) (.lit 8)], .index "xg" (.var .gp) (.lit 8)⟩,
   ⟨"assembly.cpp", [606, 608, 609, 611, 612, 614, 615, 617, 618, 620, 621, 623, 624, 626, 627, 629], [.eq .dim (.lit 3)], .index "xg" (.lit 1) (.lit 3)⟩,
   ⟨"assembly.cpp", [606, 607, 609, 610, 612, 613, 615, 616, 618, 619, 621, 622, 624, 625, 627, 628], [.eq .dim (.lit 3)], .index "xg" (.lit 2) (.lit 3)⟩,
   ⟨"assembly.cpp", [607, 610, 613, 616, 619, 622, 625, 628, 636, 641, 649], [.eq .dim (.lit 3)], .index "dsh" (.lit 1) (.lit 3)⟩,
   ⟨"assembly.cpp", [607, 608, 610, 611, 613, 614, 616, 617, 619, 620, 622, 623, 625, 626, 628, 629], [.eq .dim (.lit 3)], .index "xg" (.lit 0) (.lit 3)⟩,
   ⟨"assembly.cpp", [608, 611, 614, 617, 620, 623, 626, 629, 640, 644, 648], [.eq .dim (.lit 3)], .index "dsh" (.lit 2) (.lit 3)⟩,
   ⟨"assembly.cpp", [609, 610, 611], [.eq .dim (.lit 3)], .index "dsh" (.lit 1) (.lit 8)⟩,
   ⟨"assembly.cpp", [612, 613, 614], [.eq .dim (.lit 3)], .index "dsh" (.lit 2) (.lit 8)⟩,
   ⟨"assembly.cpp", [615, 616, 617], [.eq .dim (.lit 3)], .index "dsh" (.lit 3) (.lit 8)⟩,
   ⟨"assembly.cpp", [618, 619, 620], [.eq .dim (.lit 3)], .index "dsh" (.lit 4) (.lit 8)⟩,
   ⟨"assembly.cpp", [621, 622, 623], [.eq .dim (.lit 3)], .index "dsh" (.lit 5) (.lit 8)⟩,
   ⟨"assembly.cpp", [624, 625, 626], [.eq .dim (.lit 3)], .index "dsh" (.lit 6) (.lit 8)⟩,
   ⟨"assembly.cpp", [627, 628, 629], [.eq .dim (.lit 3)], .index "dsh" (.lit 7) (.lit 8)⟩,
   ⟨"assembly.cpp", [632, 633, 634], [.eq .dim (.lit 3)], .index "bmat" (.lit 0) (.lit 6)⟩,
   ⟨"assembly.cpp", [632, 635, 638, 641, 644, 647], [.eq .dim (.lit 3), .loop .i (.lit 0) (.lit 8)], .index "bmat" (.mul (.var .i) (.var .dim)) (.mul (.lit 3) (.lit 8))⟩,
   ⟨"assembly.cpp", [632, 636, 640, 641, 642, 644, 646, 648, 649], [.eq .dim (.lit 3), .loop .i (.lit 0) (.lit 8)], .index "dsh" (.var .i) (.lit 8)⟩,
   ⟨"assembly.cpp", [633, 636, 639, 642, 645, 648], [.eq .dim (.lit 3), .loop .i (.lit 0) (.lit 8)], .index "bmat" (.add (.mul (.var .i) (.var .dim)) (.lit 1)) (.mul (.lit 3) (.lit 8))⟩,
   ⟨"assembly.cpp", [634, 637, 640, 643, 646, 649], [.eq .dim (.lit 3), .loop .i (.lit 0) (.lit 8)], .index "bmat" (.add (.mul (.var .i) (.var .dim)) (.lit 2)) (.mul (.lit 3) (.lit 8))⟩,
   ⟨"assembly.cpp", [635, 636, 637], [.eq .dim (.lit 3)], .index "bmat" (.lit 1) (.lit 6)⟩,
   ⟨"assembly.cpp", [638, 639, 640], [.eq .dim (.lit 3)], .index "bmat" (.lit 2) (.lit 6)⟩]

/-- Array accesses and arguments of /repo/src/assembly.cpp:29-1182, part 4. -/
def assemblyUses3 : List Site :=
  [⟨"assembly.cpp", [641, 642, 643], [.eq .dim (.lit 3)], .index "bmat" (.lit 3) (.lit 6)⟩,
   ⟨"assembly.cpp", [644, 645, 646], [.eq .dim (.lit 3)], .index "bmat" (.lit 4) (.lit 6)⟩,
   ⟨"assembly.cpp", [647, 648, 649], [.eq .dim (.lit 3)], .index "bmat" (.lit 5) (.lit 6)⟩,
   ⟨"assembly.cpp", [665], [.eq .dim (.lit 2), .loop .i (.lit 0) (.mul (.lit 2) (.lit 4))], .index "be" (.var .i) (.mul (.lit 2) (.lit 4))⟩,
   ⟨"assembly.cpp", [679, 680, 1113, 1114], [.eq .dim (.lit 2)], .index "bmat" (.lit 0) (.lit 3)⟩,
   ⟨"assembly.cpp", [679, 681, 683], [.eq .dim (.lit 2), .loop .i (.lit 0) (.lit 4)], .index "bmat" (.mul (.var .i) (.var .dim)) (.mul (.lit 2) (.lit 4))⟩,
   ⟨"assembly.cpp", [680, 682, 684], [.eq .dim (.lit 2), .loop .i (.lit 0) (.lit 4)], .index "bmat" (.add (.mul (.var .i) (.var .dim)) (.lit 1)) (.mul (.lit 2) (.lit 4))⟩,
   ⟨"assembly.cpp", [681, 682, 1115, 1116], [.eq .dim (.lit 2)], .index "bmat" (.lit 1) (.lit 3)⟩,
   ⟨"assembly.cpp", [683, 684, 1117, 1118], [.eq .dim (.lit 2)], .index "bmat" (.lit 2) (.lit 3)⟩,
   ⟨"assembly.cpp", [688, 689, 746, 747, 807, 867, 868], [.eq .dim (.lit 2), .loop .gp (.lit 0) (.lit 4)], .range (.var .gp) (.lit 0) (.lit 4)⟩,
   ⟨"assembly.cpp", [688, 689, 746, 747, 867, 868], [.eq .dim (.lit 2)], .extent "strain_gp" (.lit 3) (.lit 3)⟩,
   ⟨"assembly.cpp", [689, 747], [.eq .dim (.lit 2)], .extent "stress_gp" (.lit 3) (.lit 6)⟩,
   ⟨"assembly.cpp", [694], [.eq .dim (.lit 2), .loop .j (.lit 0) (.var .nvoi)], .index "bmat" (.var .j) (.lit 3)⟩,
   ⟨"assembly.cpp", [694], [.eq .dim (.lit 2), .loop .i (.lit 0) (.mul (.var .npe) (.var .dim))], .index "bmat" (.var .i) (.mul (.lit 2) (.lit 4))⟩,
   ⟨"assembly.cpp", [694], [.eq .dim (.lit 2), .loop .j (.lit 0) (.var .nvoi)], .index "stress_gp" (.var .j) (.lit 6)⟩,
   ⟨"assembly.cpp", [706], [.eq .dim (.lit 3), .loop .i (.lit 0) (.mul (.lit 3) (.lit 8))], .index "be" (.var .i) (.mul (.lit 3) (.lit 8))⟩,
   ⟨"assembly.cpp", [713, 714, 773, 774, 830, 902, 903], [.eq .dim (.lit 3)], .extent "strain_gp" (.lit 6) (.lit 6)⟩,
   ⟨"assembly.cpp", [714, 774, 903, 988], [.eq .dim (.lit 3)], .extent "stress_gp" (.lit 6) (.lit 6)⟩,
   ⟨"assembly.cpp", [719], [.eq .dim (.lit 3), .loop .j (.lit 0) (.var .nvoi)], .index "bmat" (.var .j) (.lit 6)⟩,
   ⟨"assembly.cpp", [719], [.eq .dim (.lit 3), .loop .j (.lit 0) (.var .nvoi)], .index "stress_gp" (.var .j) (.lit 6)⟩,
   ⟨"assembly.cpp", [729, 787], [.loop .v (.lit 0) (.var .nvoi)], .index "stress_ave" (.var .v) (.lit 6)⟩,
   ⟨"assembly.cpp", [738, 859], [.eq .dim (.lit 2), .loop .i (.lit 0) (.var .nvoi)], .index "stress_aux" (.var .i) (.lit 3)⟩,
   ⟨"assembly.cpp", [749, 753, 871, 879], [.eq .dim (.lit 2), .loop .v (.lit 0) (.var .nvoi)], .index "stress_aux" (.var .v) (.lit 3)⟩,
   ⟨"assembly.cpp", [749], [.eq .dim (.lit 2), .loop .v (.lit 0) (.var .nvoi)], .index "stress_gp" (.var .v) (.lit 6)⟩,
   ⟨"assembly.cpp", [753], [.eq .dim (.lit 2), .loop .v (.lit 0) (.var .nvoi)], .index "stress_ave" (.var .v) (.lit 6)⟩,
   ⟨"assembly.cpp", [765, 894], [.eq .dim (.lit 3), .loop .i (.lit 0) (.var .nvoi)], .index "stress_aux" (.var .i) (.lit 6)⟩,
   ⟨"assembly.cpp", [776, 780, 906, 915], [.eq .dim (.lit 3), .loop .v (.lit 0) (.var .nvoi)], .index "stress_aux" (.var .v) (.lit 6)⟩,
   ⟨"assembly.cpp", [776, 906], [.eq .dim (.lit 3), .loop .v (.lit 0) (.var .nvoi)], .index "stress_gp" (.var .v) (.lit 6)⟩,
   ⟨"assembly.cpp", [780], [.eq .dim (.lit 3), .loop .v (.lit 0) (.var .nvoi)], .index "stress_ave" (.var .v) (.lit 6)⟩,
   ⟨"assembly.cpp", [793, 843], [.loop .v (.lit 0) (.var .nvoi)], .index "strain_ave" (.var .v) (.lit 6)⟩,
   ⟨"assembly.cpp", [802, 858], [.eq .dim (.lit 2), .loop .i (.lit 0) (.var .nvoi)], .index "strain_aux" (.var .i) (.lit 3)⟩,
   ⟨"assembly.cpp", [807], [.eq .dim (.lit 2)], .extent "strain_gp" (.lit 3) (.lit 6)⟩,
   ⟨"assembly.cpp", [809, 813, 870, 878], [.eq .dim (.lit 2), .loop .v (.lit 0) (.var .nvoi)], .index "strain_aux" (.var .v) (.lit 3)⟩,
   ⟨"assembly.cpp", [809], [.eq .dim (.lit 2), .loop .v (.lit 0) (.var .nvoi)], .index "strain_gp" (.var .v) (.lit 6)⟩,
   ⟨"assembly.cpp", [813], [.eq .dim (.lit 2), .loop .v (.lit 0) (.var .nvoi)], .index "strain_ave" (.var .v) (.lit 6)⟩,
   ⟨"assembly.cpp", [825, 893], [.eq .dim (.lit 3), .loop .i (.lit 0) (.var .nvoi)], .index "strain_aux" (.var .i) (.lit 6)⟩,
   ⟨"assembly.cpp", [832, 836, 905, 914], [.eq .dim (.lit 3), .loop .v (.lit 0) (.var .nvoi)], .index "strain_aux" (.var .v) (.lit 6)⟩,
   ⟨"assembly.cpp", [832, 905, 1139, 1141], [.eq .dim (.lit 3), .loop .v (.lit 0) (.var .nvoi)], .index "strain_gp" (.var .v) (.lit 6)⟩,
   ⟨"assembly.cpp", [836], [.eq .dim (.lit 3), .loop .v (.lit 0) (.var .nvoi)], .index "strain_ave" (.var .v) (.lit 6)⟩,
   ⟨"assembly.cpp", [868], [.eq .dim (.lit 2)], .extent "stress_gp" (.lit 3) (.lit 3)⟩,
   ⟨"assembly.cpp", [870, 1121, 1123], [.eq .dim (.lit 2), .loop .v (.lit 0) (.var .nvoi)], .index "strain_gp" (.var .v) (.lit 3)⟩,
   ⟨"assembly.cpp", [871], [.eq .dim (.lit 2), .loop .v (.lit 0) (.var .nvoi)], .index "stress_gp" (.var .v) (.lit 3)⟩,
   ⟨"assembly.cpp", [878], [.eq .dim (.lit 2), .loop .ex (.lit 0) (.sub (.var .nx) (.lit 1)), .loop .ey (.lit 0) (.sub (.var .ny) (.lit 1)), .eq .e (.add (.add (.mul (.mul (.lit 0) (.sub (.var .nx) (.lit 1))) (.sub (.var .ny) (.lit 1))) (.mul (.var .ey) (.sub (.var .nx) (.lit 1)))) (.var .ex)), .loop .v (.lit 0) (.var .nvoi)], .index "elem_strain" (.add (.mul (.var .e) (.var .nvoi)) (.var .v)) (.mul (.var .nelem) (.var .nvoi))⟩,
   ⟨"assembly.cpp", [879], [.eq .dim (.lit 2), .loop .ex (.lit 0) (.sub (.var .nx) (.lit 1)), .loop .ey (.lit 0) (.sub (.var .ny) (.lit 1)), .eq .e (.add (.add (.mul (.mul (.lit 0) (.sub (.var .nx) (.lit 1))) (.sub (.var .ny) (.lit 1))) (.mul (.var .ey) (.sub (.var .nx) (.lit 1)))) (.var .ex)), .loop .v (.lit 0) (.var .nvoi)], .index "elem_stress" (.add (.mul (.var .e) (.var .nvoi)) (.var .v)) (.mul (.var .nelem) (.var .nvoi))⟩,
   ⟨"assembly.cpp", [914], [.eq .dim (.lit 3), .loop .ex (.lit 0) (.sub (.var .nx) (.lit 1)), .loop .ey (.lit 0) (.sub (.var .ny) (.lit 1)), .loop .ez (.lit 0) (.sub (.var .nz) (.lit 1)), .eq .e (.add (.add (.mul (.mul (.var .ez) (.sub (.var .nx) (.lit 1))) (.sub (.var .ny) (.lit 1))) (.mul (.var .ey) (.sub (.var .nx) (.lit 1)))) (.var .ex)), .loop .v (.lit 0) (.var .nvoi)], .index "elem_strain" (.add (.mul (.var .e) (.var .nvoi)) (.var .v)) (.mul (.var .nelem) (.var .nvoi))⟩,
   ⟨"assembly.cpp", [915], [.eq .dim (.lit 3), .loop .ex (.lit 0) (.sub (.var .nx) (.lit 1)), .loop .ey (.lit 0) (.sub (.var .ny) (.lit 1)), .loop .ez (.lit 0) (.sub (.var .nz) (.lit 1)), .eq .e (.add (.add (.mul (.mul (.var .ez) (.sub (.var .nx) (.lit 1))) (.sub (.var .ny) (.lit 1))) (.mul (.var .ey) (.sub (.var .nx) (.lit 1)))) (.var .ex)), .loop .v (.lit 0) (.var .nvoi)], .index "elem_stress" (.add (.mul (.var .e) (.var .nvoi)) (.var .v)) (.mul (.var .nelem) (.var .nvoi))⟩,
   ⟨"assembly.cpp", [955, 957], [.eq .dim (.lit 2), .loop .i (.lit 0) (.lit 3)], .index "stress_gp" (.var .i) (.lit 3)⟩,
   ⟨"assembly.cpp", [957], [.eq .dim (.lit 2), .loop .i (.lit 0) (.lit 3)], .index "ctan" (.var .i) (.lit 3)⟩,
   ⟨"assembly.cpp", [957], [.eq .dim (.lit 2), .loop .j (.lit 0) (.lit 3)], .index "ctan" (.var .j) (.lit 3)⟩,
   ⟨"assembly.cpp", [957], [.eq .dim (.lit 2), .loop .j (.lit 0) (.lit 3)], .index "strain_gp" (.var .j) (.lit 3)⟩,
   ⟨"assembly.cpp", [966], [.eq .dim (.lit 3), .loop .i (.lit 0) (.lit 6)], .index "tensor_dev" (.var .i) (.lit 6)⟩,
   ⟨"assembly.cpp", [966], [.eq .dim (.lit 3), .loop .i (.lit 0) (.lit 6)], .index "tensor" (.var .i) (.lit 6)⟩,
   ⟨"assembly.cpp", [968], [.eq .dim (.lit 3), .loop .i (.lit 0) (.lit 3)], .index "tensor_dev" (.var .i) (.lit 6)⟩,
   ⟨"assembly.cpp", [968], [.eq .dim (.lit 3)], .index "tensor" (.lit 0) (.lit 6)⟩,
   ⟨"assembly.cpp", [968], [.eq .dim (.lit 3)], .index "tensor" (.lit 1) (.lit 6)⟩,
   ⟨"assembly.cpp", [968], [.eq .dim (.lit 3)], .index "tensor" (.lit 2) (.lit 6)⟩,
   ⟨"assembly.cpp", [985, 1045, 1049], [.eq .dim (.lit 3), .loop .i (.lit 0) (.lit 6)], .index "eps_p_old" (.var .i) (.lit 6)⟩,
   ⟨"assembly.cpp", [985], [.eq .dim (.lit 3), .loop .ex (.lit 0) (.sub (.var .nx) (.lit 1)), .loop .ey (.lit 0) (.sub (.var .ny) (.lit 1)), .loop .ez (.lit 0) (.sub (.var .nz) (.lit 1)), .loop .gp (.lit 0) (.lit 8), .eq .e (.add (.add (.mul (.mul (.var .ez) (.sub (.var .nx) (.lit 1))) (.sub (.var .ny) (.lit 1))) (.mul (.var .ey) (.sub (.var .nx) (.lit 1)))) (.var .ex)), .loop .i (.lit 0) (.lit 6)], .index "vars_old" (.add (.add (.mul (.mul (.var .e) (.lit 8)) (.lit 7)) (.mul (.var .gp) (.lit 7))) (.var .i)) (.var .num_int_vars)⟩,
   ⟨"assembly.cpp", [986], [.eq .dim (.lit 3), .loop .ex (.lit 0) (.sub (.var .nx) (.lit 1)), .loop .ey (.lit 0) (.sub (.var .ny) (.lit 1)), .loop .ez (.lit 0) (.sub (.var .nz) (.lit 1)), .loop .gp (.lit 0) (.lit 8), .eq .e (.add (.add (.mul (.mul (.var .ez) (.sub (.var .nx) (.lit 1))) (.sub (.var .ny) (.lit 1))) (.mul (.var .ey) (.sub (.var .nx) (.lit 1)))) (.var .ex))], .index "vars_old" (.add (.add (.mul (.mul (.var .e) (.lit 8)) (.lit 7)) (.mul (.var .gp) (.lit 7))) (.lit 6)) (.var .num_int_vars)⟩,
   ⟨"assembly.cpp", [988, 1019], [.eq .dim (.lit 3)], .extent "eps" (.lit 6) (.lit 6)⟩]

/-- Array accesses and arguments of /repo/src/assembly.cpp:29-1182, part 5. -/
def assemblyUses4 : List Site :=
  [⟨"assembly.cpp", [988, 1018], [.eq .dim (.lit 3)], .extent "eps_p_old" (.lit 6) (.lit 6)⟩,
   ⟨"assembly.cpp", [988], [.eq .dim (.lit 3)], .extent "eps_p_new" (.lit 6) (.lit 6)⟩,
   ⟨"assembly.cpp", [992], [.eq .dim (.lit 3), .loop .ex (.lit 0) (.sub (.var .nx) (.lit 1)), .loop .ey (.lit 0) (.sub (.var .ny) (.lit 1)), .loop .ez (.lit 0) (.sub (.var .nz) (.lit 1)), .loop .gp (.lit 0) (.lit 8), .eq .e (.add (.add (.mul (.mul (.var .ez) (.sub (.var .nx) (.lit 1))) (.sub (.var .ny) (.lit 1))) (.mul (.var .ey) (.sub (.var .nx) (.lit 1)))) (.var .ex)), .loop .i (.lit 0) (.lit 6)], .index "vars_new" (.add (.add (.mul (.mul (.var .e) (.lit 8)) (.lit 7)) (.mul (.var .gp) (.lit 7))) (.var .i)) (.var .num_int_vars)⟩,
   ⟨"assembly.cpp", [992, 1045, 1049], [.eq .dim (.lit 3), .loop .i (.lit 0) (.lit 6)], .index "eps_p_new" (.var .i) (.lit 6)⟩,
   ⟨"assembly.cpp", [993], [.eq .dim (.lit 3), .loop .ex (.lit 0) (.sub (.var .nx) (.lit 1)), .loop .ey (.lit 0) (.sub (.var .ny) (.lit 1)), .loop .ez (.lit 0) (.sub (.var .nz) (.lit 1)), .loop .gp (.lit 0) (.lit 8), .eq .e (.add (.add (.mul (.mul (.var .ez) (.sub (.var .nx) (.lit 1))) (.sub (.var .ny) (.lit 1))) (.mul (.var .ey) (.sub (.var .nx) (.lit 1)))) (.var .ex))], .index "vars_new" (.add (.add (.mul (.mul (.var .e) (.lit 8)) (.lit 7)) (.mul (.var .gp) (.lit 7))) (.lit 6)) (.var .num_int_vars)⟩,
   ⟨"assembly.cpp", [998, 999], [.eq .dim (.lit 3), .loop .i (.lit 0) (.lit 3)], .index "stress_gp" (.var .i) (.lit 6)⟩,
   ⟨"assembly.cpp", [998, 1058], [.eq .dim (.lit 3)], .index "eps" (.lit 0) (.lit 6)⟩,
   ⟨"assembly.cpp", [998, 1058], [.eq .dim (.lit 3)], .index "eps" (.lit 1) (.lit 6)⟩,
   ⟨"assembly.cpp", [998, 1058], [.eq .dim (.lit 3)], .index "eps" (.lit 2) (.lit 6)⟩,
   ⟨"assembly.cpp", [999], [.eq .dim (.lit 3), .loop .i (.lit 0) (.lit 3)], .index "eps" (.var .i) (.lit 6)⟩,
   ⟨"assembly.cpp", [1002], [.eq .dim (.lit 3), .loop .i (.lit 3) (.lit 6)], .index "stress_gp" (.var .i) (.lit 6)⟩,
   ⟨"assembly.cpp", [1002], [.eq .dim (.lit 3), .loop .i (.lit 3) (.lit 6)], .index "eps" (.var .i) (.lit 6)⟩,
   ⟨"assembly.cpp", [1018], [.eq .dim (.lit 3)], .extent "eps_p_dev_1" (.lit 6) (.lit 6)⟩,
   ⟨"assembly.cpp", [1019], [.eq .dim (.lit 3)], .extent "eps_dev" (.lit 6) (.lit 6)⟩,
   ⟨"assembly.cpp", [1022], [.eq .dim (.lit 3), .loop .i (.lit 0) (.lit 3)], .index "sig_dev_trial" (.var .i) (.lit 6)⟩,
   ⟨"assembly.cpp", [1022], [.eq .dim (.lit 3), .loop .i (.lit 0) (.lit 3)], .index "eps_dev" (.var .i) (.lit 6)⟩,
   ⟨"assembly.cpp", [1022], [.eq .dim (.lit 3), .loop .i (.lit 0) (.lit 3)], .index "eps_p_dev_1" (.var .i) (.lit 6)⟩,
   ⟨"assembly.cpp", [1025], [.eq .dim (.lit 3), .loop .i (.lit 3) (.lit 6)], .index "sig_dev_trial" (.var .i) (.lit 6)⟩,
   ⟨"assembly.cpp", [1025], [.eq .dim (.lit 3), .loop .i (.lit 3) (.lit 6)], .index "eps_dev" (.var .i) (.lit 6)⟩,
   ⟨"assembly.cpp", [1025], [.eq .dim (.lit 3), .loop .i (.lit 3) (.lit 6)], .index "eps_p_dev_1" (.var .i) (.lit 6)⟩,
   ⟨"assembly.cpp", [1027], [.eq .dim (.lit 3)], .index "sig_dev_trial" (.lit 0) (.lit 6)⟩,
   ⟨"assembly.cpp", [1028], [.eq .dim (.lit 3)], .index "sig_dev_trial" (.lit 1) (.lit 6)⟩,
   ⟨"assembly.cpp", [1029], [.eq .dim (.lit 3)], .index "sig_dev_trial" (.lit 2) (.lit 6)⟩,
   ⟨"assembly.cpp", [1030], [.eq .dim (.lit 3)], .index "sig_dev_trial" (.lit 3) (.lit 6)⟩,
   ⟨"assembly.cpp", [1031], [.eq .dim (.lit 3)], .index "sig_dev_trial" (.lit 4) (.lit 6)⟩,
   ⟨"assembly.cpp", [1032], [.eq .dim (.lit 3)], .index "sig_dev_trial" (.lit 5) (.lit 6)⟩,
   ⟨"assembly.cpp", [1040, 1045, 1061], [.eq .dim (.lit 3), .loop .i (.lit 0) (.lit 6)], .index "normal" (.var .i) (.lit 6)⟩,
   ⟨"assembly.cpp", [1040, 1055], [.eq .dim (.lit 3), .loop .i (.lit 0) (.lit 6)], .index "sig_dev_trial" (.var .i) (.lit 6)⟩,
   ⟨"assembly.cpp", [1055, 1061], [.eq .dim (.lit 3), .loop .i (.lit 0) (.lit 6)], .index "stress" (.var .i) (.lit 6)⟩,
   ⟨"assembly.cpp", [1058], [.eq .dim (.lit 3), .loop .i (.lit 0) (.lit 3)], .index "stress" (.var .i) (.lit 6)⟩,
   ⟨"assembly.cpp", [1068, 1074], [.loop .e (.lit 0) (.var .nelem)], .index "elem_type" (.var .e) (.var .nelem)⟩,
   ⟨"assembly.cpp", [1069, 1075], [], .range (.lit 0) (.lit 0) (.var .numMaterials)⟩,
   ⟨"assembly.cpp", [1071, 1077], [], .range (.lit 1) (.lit 0) (.var .numMaterials)⟩,
   ⟨"assembly.cpp", [1079, 1080, 1081, 1082, 1083, 1084, 1085, 1086], [.loop .mat_num (.lit 0) (.var .numMaterials)], .index "material_list" (.var .mat_num) (.lit 10)⟩,
   ⟨"assembly.cpp", [1092], [.eq .dim (.lit 2)], .extent "elem_disp" (.lit 8) (.mul (.lit 2) (.lit 4))⟩,
   ⟨"assembly.cpp", [1113, 1115, 1117], [.eq .dim (.lit 2), .loop .i (.lit 0) (.lit 4)], .index "bmat" (.mul (.var .i) (.var .dim)) (.lit 8)⟩,
   ⟨"assembly.cpp", [1114, 1116, 1118], [.eq .dim (.lit 2), .loop .i (.lit 0) (.lit 4)], .index "bmat" (.add (.mul (.var .i) (.var .dim)) (.lit 1)) (.lit 8)⟩,
   ⟨"assembly.cpp", [1123], [.eq .dim (.lit 2), .loop .v (.lit 0) (.var .nvoi)], .index "bmat" (.var .v) (.lit 3)⟩,
   ⟨"assembly.cpp", [1123], [.eq .dim (.lit 2), .loop .i (.lit 0) (.mul (.var .npe) (.var .dim))], .index "bmat" (.var .i) (.lit 8)⟩,
   ⟨"assembly.cpp", [1123], [.eq .dim (.lit 2), .loop .i (.lit 0) (.mul (.var .npe) (.var .dim))], .index "elem_disp" (.var .i) (.mul (.lit 2) (.lit 4))⟩,
   ⟨"assembly.cpp", [1133], [.eq .dim (.lit 3)], .extent "elem_disp" (.lit 24) (.mul (.lit 3) (.lit 8))⟩,
   ⟨"assembly.cpp", [1141], [.eq .dim (.lit 3), .loop .v (.lit 0) (.var .nvoi)], .index "bmat" (.var .v) (.lit 6)⟩,
   ⟨"assembly.cpp", [1141], [.eq .dim (.lit 3), .loop .i (.lit 0) (.mul (.var .npe) (.var .dim))], .index "elem_disp" (.var .i) (.mul (.lit 3) (.lit 8))⟩,
   ⟨"assembly.cpp", [1154], [.eq .dim (.lit 2), .loop .d (.lit 0) (.var .dim)], .index "elem_disp" (.add (.mul (.lit 0) (.var .dim)) (.var .d)) (.lit 8)⟩,
   ⟨"assembly.cpp", [1154], [.eq .dim (.lit 2), .loop .ex (.lit 0) (.sub (.var .nx) (.lit 1)), .loop .ey (.lit 0) (.sub (.var .ny) (.lit 1)), .eq .n0 (.add (.mul (.var .ey) (.var .nx)) (.var .ex)), .loop .d (.lit 0) (.var .dim)], .index "u" (.add (.mul (.var .n0) (.var .dim)) (.var .d)) (.mul (.var .nn) (.var .dim))⟩,
   ⟨"assembly.cpp", [1155], [.eq .dim (.lit 2), .loop .d (.lit 0) (.var .dim)], .index "elem_disp" (.add (.mul (.lit 1) (.var .dim)) (.var .d)) (.lit 8)⟩,
   ⟨"assembly.cpp", [1155], [.eq .dim (.lit 2), .loop .ex (.lit 0) (.sub (.var .nx) (.lit 1)), .loop .ey (.lit 0) (.sub (.var .ny) (.lit 1)), .eq .n1 (.add (.add (.mul (.var .ey) (.var .nx)) (.var .ex)) (.lit 1)), .loop .d (.lit 0) (.var .dim)], .index "u" (.add (.mul (.var .n1) (.var .dim)) (.var .d)) (.mul (.var .nn) (.var .dim))⟩,
   ⟨"assembly.cpp", [1156], [.eq .dim (.lit 2), .loop .d (.lit 0) (.var .dim)], .index "elem_disp" (.add (.mul (.lit 2) (.var .dim)) (.var .d)) (.lit 8)⟩,
   ⟨"assembly.cpp", [1156], [.eq .dim (.lit 2), .loop .ex (.lit 0) (.sub (.var .nx) (.lit 1)), .loop .ey (.lit 0) (.sub (.var .ny) (.lit 1)), .eq .n2 (.add (.add (.mul (.add (.var .ey) (.lit 1)) (.var .nx)) (.var .ex)) (.lit 1)), .loop .d (.lit 0) (.var .dim)], .index "u" (.add (.mul (.var .n2) (.var .dim)) (.var .d)) (.mul (.var .nn) (.var .dim))⟩,
   ⟨"assembly.cpp", [1157], [.eq .dim (.lit 2), .loop .d (.lit 0) (.var .dim)], .index "elem_disp" (.add (.mul (.lit 3) (.var .dim)) (.var .d)) (.lit 8)⟩,
   ⟨"assembly.cpp", [1157], [.eq .dim (.lit 2), .loop .ex (.lit 0) (.sub (.var .nx) (.lit 1)), .loop .ey (.lit 0) (.sub (.var .ny) (.lit 1)), .eq .n3 (.add (.mul (.add (.var .ey) (.lit 1)) (.var .nx)) (.var .ex)), .loop .d (.lit 0) (.var .dim)], .index "u" (.add (.mul (.var .n3) (.var .dim)) (.var .d)) (.mul (.var .nn) (.var .dim))⟩,
   ⟨"assembly.cpp", [1173], [.eq .dim (.lit 3), .loop .d (.lit 0) (.var .dim)], .index "elem_disp" (.add (.mul (.lit 0) (.var .dim)) (.var .d)) (.lit 24)⟩,
   ⟨"assembly.cpp", [1173], [.eq .dim (.lit 3), .loop .ex (.lit 0) (.sub (.var .nx) (.lit 1)), .loop .ey (.lit 0) (.sub (.var .ny) (.lit 1)), .loop .ez (.lit 0) (.sub (.var .nz) (.lit 1)), .eq .n0 (.add (.add (.mul (.var .ez) (.mul (.var .nx) (.var .ny))) (.mul (.var .ey) (.var .nx))) (.var .ex)), .loop .d (.lit 0) (.var .dim)], .index "u" (.add (.mul (.var .n0) (.var .dim)) (.var .d)) (.mul (.var .nn) (.var .dim))⟩,
   ⟨"assembly.cpp", [1174], [.eq .dim (.lit 3), .loop .d (.lit 0) (.var .dim)], .index "elem_disp" (.add (.mul (.lit 1) (.var .dim)) (.var .d)) (.lit 24)⟩,
   ⟨"assembly.cpp", [1174], [.eq .dim (.lit 3), .loop .ex (.lit 0) (.sub (.var .nx) (.lit 1)), .loop .ey (.lit 0) (.sub (.var .ny) (.lit 1)), .loop .ez (.lit 0) (.sub (.var .nz) (.lit 1)), .eq .n1 (.add (.add (.add (.mul (.var .ez) (.mul (.var .nx) (.var .ny))) (.mul (.var .ey) (.var .nx))) (.var .ex)) (.lit 1)), .loop .d (.lit 0) (.var .dim)], .index "u" (.add (.mul (.var .n1) (.var .dim)) (.var .d)) (.mul (.var .nn) (.var .dim))⟩,
   ⟨"assembly.cpp", [1175], [.eq .dim (.lit 3), .loop .d (.lit 0) (.var .dim)], .index "elem_disp" (.add (.mul (.lit 2) (.var .dim)) (.var .d)) (.lit 24)⟩,
   ⟨"assembly.cpp", [1175], [.eq .dim (.lit 3), .loop .ex (.lit 0) (.sub (.var .nx) (.lit 1)), .loop .ey (.lit 0) (.sub (.var .ny) (.lit 1)), .loop .ez (.lit 0) (.sub (.var .nz) (.lit 1)), .eq .n2 (.add (.add (.add (.mul (.var .ez) (.mul (.var .nx) (.var .ny))) (.mul (.add (.var .ey) (.lit 1)) (.var .nx))) (.var .ex)) (.lit 1)), .loop .d (.lit 0) (.var .dim)], .index "u" (.add (.mul (.var .n2) (.var .dim)) (.var .d)) (.mul (.var .nn) (.var .dim))⟩,
   ⟨"assembly.cpp", [1176], [.eq .dim (.lit 3), .loop .d (.lit 0) (.var .dim)], .index "elem_disp" (.add (.mul (.lit 3) (.var .dim)) (.var .d)) (.lit 24)⟩,
   ⟨"assembly.cpp", [1176], [.eq .dim (.lit 3), .loop .ex (.lit 0) (.sub (.var .nx) (.lit 1)), .loop .ey (.lit 0) (.sub (.var .ny) (.lit 1)), .loop .ez (.lit 0) (.sub (.var .nz) (.lit 1)), .eq .n3 (.add (.add (.mul (.var .ez) (.mul (.var .nx) (.var .ny))) (.mul (.add (.var .ey) (.lit 1)) (.var .nx))) (.var .ex)), .loop .d (.lit 0) (.var .dim)], .index "u" (.add (.mul (.var .n3) (.var .dim)) (.var .d)) (.mul (.var .nn) (.var .dim))⟩,
   ⟨"assembly.cpp", [1177], [.eq .dim (.lit 3), .loop .d (.lit 0) (.var .dim)], .index "elem_disp" (.add (.mul (.lit 4) (.var .dim)) (.var .d)) (.lit 24)⟩]

/-- Array accesses and arguments of /repo/src/assembly.cpp:29-1182, part 6. -/
def assemblyUses5 : List Site :=
  [⟨"assembly.cpp", [1177], [.eq .dim (.lit 3), .loop .ex (.lit 0) (.sub (.var .nx) (.lit 1)), .loop .ey (.lit 0) (.sub (.var .ny) (.lit 1)), .loop .ez (.lit 0) (.sub (.var .nz) (.lit 1)), .eq .n0 (.add (.add (.mul (.var .ez) (.mul (.var .nx) (.var .ny))) (.mul (.var .ey) (.var .nx))) (.var .ex)), .eq .n4 (.add (.var .n0) (.mul (.var .nx) (.var .ny))), .loop .d (.lit 0) (.var .dim)], .index "u" (.add (.mul (.var .n4) (.var .dim)) (.var .d)) (.mul (.var .nn) (.var .dim))⟩,
   ⟨"assembly.cpp", [1178], [.eq .dim (.lit 3), .loop .d (.lit 0) (.var .dim)], .index "elem_disp" (.add (.mul (.lit 5) (.var .dim)) (.var .d)) (.lit 24)⟩,
   ⟨"assembly.cpp", [1178], [.eq .dim (.lit 3), .loop .ex (.lit 0) (.sub (.var .nx) (.lit 1)), .loop .ey (.lit 0) (.sub (.var .ny) (.lit 1)), .loop .ez (.lit 0) (.sub (.var .nz) (.lit 1)), .eq .n1 (.add (.add (.add (.mul (.var .ez) (.mul (.var .nx) (.var .ny))) (.mul (.var .ey) (.var .nx))) (.var .ex)) (.lit 1)), .eq .n5 (.add (.var .n1) (.mul (.var .nx) (.var .ny))), .loop .d (.lit 0) (.var .dim)], .index "u" (.add (.mul (.var .n5) (.var .dim)) (.var .d)) (.mul (.var .nn) (.var .dim))⟩,
   ⟨"assembly.cpp", [1179], [.eq .dim (.lit 3), .loop .d (.lit 0) (.var .dim)], .index "elem_disp" (.add (.mul (.lit 6) (.var .dim)) (.var .d)) (.lit 24)⟩,
   ⟨"assembly.cpp", [1179], [.eq .dim (.lit 3), .loop .ex (.lit 0) (.sub (.var .nx) (.lit 1)), .loop .ey (.lit 0) (.sub (.var .ny) (.lit 1)), .loop .ez (.lit 0) (.sub (.var .nz) (.lit 1)), .eq .n2 (.add (.add (.add (.mul (.var .ez) (.mul (.var .nx) (.var .ny))) (.mul (.add (.var .ey) (.lit 1)) (.var .nx))) (.var .ex)) (.lit 1)), .eq .n6 (.add (.var .n2) (.mul (.var .nx) (.var .ny))), .loop .d (.lit 0) (.var .dim)], .index "u" (.add (.mul (.var .n6) (.var .dim)) (.var .d)) (.mul (.var .nn) (.var .dim))⟩,
   ⟨"assembly.cpp", [1180], [.eq .dim (.lit 3), .loop .d (.lit 0) (.var .dim)], .index "elem_disp" (.add (.mul (.lit 7) (.var .dim)) (.var .d)) (.lit 24)⟩,
   ⟨"assembly.cpp", [1180], [.eq .dim (.lit 3), .loop .ex (.lit 0) (.sub (.var .nx) (.lit 1)), .loop .ey (.lit 0) (.sub (.var .ny) (.lit 1)), .loop .ez (.lit 0) (.sub (.var .nz) (.lit 1)), .eq .n3 (.add (.add (.mul (.var .ez) (.mul (.var .nx) (.var .ny))) (.mul (.add (.var .ey) (.lit 1)) (.var .nx))) (.var .ex)), .eq .n7 (.add (.var .n3) (.mul (.var .nx) (.var .ny))), .loop .d (.lit 0) (.var .dim)], .index "u" (.add (.mul (.var .n7) (.var .dim)) (.var .d)) (.mul (.var .nn) (.var .dim))⟩]

/-- Integer expressions of /repo/src/solve.cpp:32-66. -/
def solveInts0 : List Site :=
  [⟨"solve.cpp", [57, 60], [], .fits (.mul (.var .nn) (.var .dim))⟩]

/-- Array accesses and arguments of /repo/src/solve.cpp:32-66. -/
def solveUses0 : List Site :=
  [⟨"solve.cpp", [58, 61], [.loop .i (.lit 0) (.mul (.var .nn) (.var .dim))], .index "du" (.var .i) (.mul (.var .nn) (.var .dim))⟩,
   ⟨"solve.cpp", [61], [.loop .i (.lit 0) (.mul (.var .nn) (.var .dim))], .index "u" (.var .i) (.mul (.var .nn) (.var .dim))⟩]

/-- Integer expressions of /repo/src/homogenize.cpp:26-217. -/
def homogenizeInts0 : List Site :=
  [⟨"homogenize.cpp", [45, 201], [.loop .i (.lit 0) (.var .nvoi), .loop .v (.lit 0) (.var .nvoi)], .fits (.add (.mul (.var .v) (.var .nvoi)) (.var .i))⟩,
   ⟨"homogenize.cpp", [55, 151, 156], [.loop .i (.lit 0) (.var .nvoi), .loop .j (.lit 0) (.var .nvoi)], .fits (.add (.mul (.var .i) (.var .nvoi)) (.var .j))⟩,
   ⟨"homogenize.cpp", [126], [], .fits (.mul (.var .nvoi) (.var .nvoi))⟩,
   ⟨"homogenize.cpp", [158], [], .fits (.add (.lit 1) (.var .nvoi))⟩,
   ⟨"homogenize.cpp", [203, 204], [.loop .i (.lit 0) (.var .nvoi)], .fits (.add (.lit 1) (.var .i))⟩]

/-- Array accesses and arguments of /repo/src/homogenize.cpp:26-217. -/
def homogenizeUses0 : List Site :=
  [⟨"homogenize.cpp", [33, 194], [.loop .v (.lit 0) (.var .nvoi)], .index "eps_1" (.var .v) (.lit 6)⟩,
   ⟨"homogenize.cpp", [35, 195], [.loop .i (.lit 0) (.var .nvoi)], .index "eps_1" (.var .i) (.lit 6)⟩,
   ⟨"homogenize.cpp", [40, 197], [], .extent "eps_1" (.var .nvoi) (.lit 6)⟩,
   ⟨"homogenize.cpp", [42, 199], [], .extent "sig_1" (.lit 6) (.lit 6)⟩,
   ⟨"homogenize.cpp", [45], [.loop .i (.lit 0) (.var .nvoi), .loop .v (.lit 0) (.var .nvoi)], .index "ctan_lin" (.add (.mul (.var .v) (.var .nvoi)) (.var .i)) (.lit 36)⟩,
   ⟨"homogenize.cpp", [45, 201], [.loop .v (.lit 0) (.var .nvoi)], .index "sig_1" (.var .v) (.lit 6)⟩,
   ⟨"homogenize.cpp", [53, 55, 117, 149, 151], [.loop .i (.lit 0) (.var .nvoi)], .index "macro_stress" (.var .i) (.lit 6)⟩,
   ⟨"homogenize.cpp", [55, 151, 156], [.loop .i (.lit 0) (.var .nvoi), .loop .j (.lit 0) (.var .nvoi)], .index "ctan_lin" (.add (.mul (.var .i) (.var .nvoi)) (.var .j)) (.lit 36)⟩,
   ⟨"homogenize.cpp", [55], [.loop .j (.lit 0) (.var .nvoi)], .index "macro_strain" (.var .j) (.var .nvoi)⟩,
   ⟨"homogenize.cpp", [58], [], .extent "macro_stress" (.var .nvoi) (.lit 6)⟩,
   ⟨"homogenize.cpp", [70], [.eq .dim (.lit 2)], .index "tensor" (.lit 0) (.var .nvoi)⟩,
   ⟨"homogenize.cpp", [70], [.eq .dim (.lit 2)], .index "tensor" (.lit 1) (.var .nvoi)⟩,
   ⟨"homogenize.cpp", [72, 80, 81], [.eq .dim (.lit 3)], .index "tensor" (.lit 0) (.var .nvoi)⟩,
   ⟨"homogenize.cpp", [72, 80, 82], [.eq .dim (.lit 3)], .index "tensor" (.lit 1) (.var .nvoi)⟩,
   ⟨"homogenize.cpp", [72, 81, 82], [.eq .dim (.lit 3)], .index "tensor" (.lit 2) (.var .nvoi)⟩,
   ⟨"homogenize.cpp", [83], [.eq .dim (.lit 3)], .index "tensor" (.lit 3) (.var .nvoi)⟩,
   ⟨"homogenize.cpp", [84], [.eq .dim (.lit 3)], .index "tensor" (.lit 4) (.var .nvoi)⟩,
   ⟨"homogenize.cpp", [85], [.eq .dim (.lit 3)], .index "tensor" (.lit 5) (.var .nvoi)⟩,
   ⟨"homogenize.cpp", [96, 106], [.loop .i (.lit 0) (.var .nvoi)], .index "macro_strain" (.var .i) (.lit 6)⟩,
   ⟨"homogenize.cpp", [96, 106], [.loop .i (.lit 0) (.var .nvoi)], .index "macro_strain" (.var .i) (.var .nvoi)⟩,
   ⟨"homogenize.cpp", [117], [.loop .i (.lit 0) (.var .nvoi)], .index "macro_stress" (.var .i) (.var .nvoi)⟩,
   ⟨"homogenize.cpp", [127], [.loop .i (.lit 0) (.mul (.var .nvoi) (.var .nvoi))], .index "macro_ctan" (.var .i) (.mul (.var .nvoi) (.var .nvoi))⟩,
   ⟨"homogenize.cpp", [127], [.loop .i (.lit 0) (.mul (.var .nvoi) (.var .nvoi))], .index "macro_ctan" (.var .i) (.lit 36)⟩,
   ⟨"homogenize.cpp", [138, 141], [.loop .i (.lit 0) (.var .num_int_vars)], .index "vars_old" (.var .i) (.var .num_int_vars)⟩,
   ⟨"homogenize.cpp", [141, 178, 216], [.loop .i (.lit 0) (.var .num_int_vars)], .index "int_vars_n" (.var .i) (.var .num_int_vars)⟩,
   ⟨"homogenize.cpp", [145, 169], [], .extent "macro_strain" (.var .nvoi) (.lit 6)⟩,
   ⟨"homogenize.cpp", [151], [.loop .j (.lit 0) (.var .nvoi)], .index "macro_strain" (.var .j) (.lit 6)⟩,
   ⟨"homogenize.cpp", [156], [.loop .i (.lit 0) (.var .nvoi), .loop .j (.lit 0) (.var .nvoi)], .index "macro_ctan" (.add (.mul (.var .i) (.var .nvoi)) (.var .j)) (.lit 36)⟩,
   ⟨"homogenize.cpp", [159], [.loop .i (.lit 0) (.add (.lit 1) (.var .nvoi))], .index "nr_its" (.var .i) (.lit 7)⟩,
   ⟨"homogenize.cpp", [160], [.loop .i (.lit 0) (.add (.lit 1) (.var .nvoi))], .index "nr_err" (.var .i) (.lit 7)⟩,
   ⟨"homogenize.cpp", [171], [], .extent "macro_stress" (.lit 6) (.lit 6)⟩,
   ⟨"homogenize.cpp", [181, 216], [.loop .i (.lit 0) (.var .num_int_vars)], .index "int_vars_k" (.var .i) (.var .num_int_vars)⟩,
   ⟨"homogenize.cpp", [181], [.loop .i (.lit 0) (.var .num_int_vars)], .index "vars_new" (.var .i) (.var .num_int_vars)⟩,
   ⟨"homogenize.cpp", [184], [], .index "nr_its" (.lit 0) (.lit 7)⟩,
   ⟨"homogenize.cpp", [185], [], .index "nr_err" (.lit 0) (.lit 7)⟩,
   ⟨"homogenize.cpp", [190, 201], [.loop .v (.lit 0) (.var .nvoi)], .index "sig_0" (.var .v) (.lit 6)⟩,
   ⟨"homogenize.cpp", [190], [.loop .v (.lit 0) (.var .nvoi)], .index "macro_stress" (.var .v) (.lit 6)⟩,
   ⟨"homogenize.cpp", [194], [.loop .v (.lit 0) (.var .nvoi)], .index "macro_strain" (.var .v) (.lit 6)⟩,
   ⟨"homogenize.cpp", [201], [.loop .i (.lit 0) (.var .nvoi), .loop .v (.lit 0) (.var .nvoi)], .index "macro_ctan" (.add (.mul (.var .v) (.var .nvoi)) (.var .i)) (.lit 36)⟩,
   ⟨"homogenize.cpp", [203], [.loop .i (.lit 0) (.var .nvoi)], .index "nr_its" (.add (.lit 1) (.var .i)) (.lit 7)⟩,
   ⟨"homogenize.cpp", [204], [.loop .i (.lit 0) (.var .nvoi)], .index "nr_err" (.add (.lit 1) (.var .i)) (.lit 7)⟩]

/-- Integer expressions of /repo/src/output.cpp:29-285. -/
def outputInts0 : List Site :=
  [⟨"output.cpp", [91], [.eq .dim (.lit 2)], .fits (.sub (.var .ny) (.lit 1))⟩,
   ⟨"output.cpp", [92], [.eq .dim (.lit 2)], .fits (.sub (.var .nx) (.lit 1))⟩,
   ⟨"output.cpp", [93], [.eq .dim (.lit 2), .loop .ey (.lit 0) (.sub (.var .ny) (.lit 1)), .loop .ex (.lit 0) (.sub (.var .nx) (.lit 1))], .fits (.add (.mul (.var .ey) (.var .nx)) (.var .ex))⟩,
   ⟨"output.cpp", [94], [.eq .dim (.lit 2), .loop .ey (.lit 0) (.sub (.var .ny) (.lit 1)), .loop .ex (.lit 0) (.sub (.var .nx) (.lit 1))], .fits (.add (.add (.mul (.var .ey) (.var .nx)) (.var .ex)) (.lit 1))⟩,
   ⟨"output.cpp", [95], [.eq .dim (.lit 2), .loop .ey (.lit 0) (.sub (.var .ny) (.lit 1)), .loop .ex (.lit 0) (.sub (.var .nx) (.lit 1))], .fits (.add (.add (.mul (.add (.var .ey) (.lit 1)) (.var .nx)) (.var .ex)) (.lit 1))⟩,
   ⟨"output.cpp", [96], [.eq .dim (.lit 2), .loop .ey (.lit 0) (.sub (.var .ny) (.lit 1)), .loop .ex (.lit 0) (.sub (.var .nx) (.lit 1))], .fits (.add (.mul (.add (.var .ey) (.lit 1)) (.var .nx)) (.var .ex))⟩,
   ⟨"output.cpp", [101], [.eq .dim (.lit 3)], .fits (.sub (.var .nz) (.lit 1))⟩,
   ⟨"output.cpp", [102], [.eq .dim (.lit 3)], .fits (.sub (.var .ny) (.lit 1))⟩,
   ⟨"output.cpp", [103], [.eq .dim (.lit 3)], .fits (.sub (.var .nx) (.lit 1))⟩,
   ⟨"output.cpp", [104], [.eq .dim (.lit 3), .loop .ez (.lit 0) (.sub (.var .nz) (.lit 1)), .loop .ey (.lit 0) (.sub (.var .ny) (.lit 1)), .loop .ex (.lit 0) (.sub (.var .nx) (.lit 1))], .fits (.add (.add (.mul (.var .ez) (.mul (.var .nx) (.var .ny))) (.mul (.var .ey) (.var .nx))) (.var .ex))⟩,
   ⟨"output.cpp", [105], [.eq .dim (.lit 3), .loop .ez (.lit 0) (.sub (.var .nz) (.lit 1)), .loop .ey (.lit 0) (.sub (.var .ny) (.lit 1)), .loop .ex (.lit 0) (.sub (.var .nx) (.lit 1))], .fits (.add (.add (.add (.mul (.var .ez) (.mul (.var .nx) (.var .ny))) (.mul (.var .ey) (.var .nx))) (.var .ex)) (.lit 1))⟩,
   ⟨"output.cpp", [106], [.eq .dim (.lit 3), .loop .ez (.lit 0) (.sub (.var .nz) (.lit 1)), .loop .ey (.lit 0) (.sub (.var .ny) (.lit 1)), .loop .ex (.lit 0) (.sub (.var .nx) (.lit 1))], .fits (.add (.add (.add (.mul (.var .ez) (.mul (.var .nx) (.var .ny))) (.mul (.add (.var .ey) (.lit 1)) (.var .nx))) (.var .ex)) (.lit 1))⟩,
   ⟨"output.cpp", [107], [.eq .dim (.lit 3), .loop .ez (.lit 0) (.sub (.var .nz) (.lit 1)), .loop .ey (.lit 0) (.sub (.var .ny) (.lit 1)), .loop .ex (.lit 0) (.sub (.var .nx) (.lit 1))], .fits (.add (.add (.mul (.var .ez) (.mul (.var .nx) (.var .ny))) (.mul (.add (.var .ey) (.lit 1)) (.var .nx))) (.var .ex))⟩,
   ⟨"output.cpp", [108], [.eq .dim (.lit 3), .loop .ez (.lit 0) (.sub (.var .nz) (.lit 1)), .loop .ey (.lit 0) (.sub (.var .ny) (.lit 1)), .loop .ex (.lit 0) (.sub (.var .nx) (.lit 1)), .eq .n0 (.add (.add (.mul (.var .ez) (.mul (.var .nx) (.var .ny))) (.mul (.var .ey) (.var .nx))) (.var .ex))], .fits (.add (.var .n0) (.mul (.var .nx) (.var .ny)))⟩,
   ⟨"output.cpp", [109], [.eq .dim (.lit 3), .loop .ez (.lit 0) (.sub (.var .nz) (.lit 1)), .loop .ey (.lit 0) (.sub (.var .ny) (.lit 1)), .loop .ex (.lit 0) (.sub (.var .nx) (.lit 1)), .eq .n1 (.add (.add (.add (.mul (.var .ez) (.mul (.var .nx) (.var .ny))) (.mul (.var .ey) (.var .nx))) (.var .ex)) (.lit 1))], .fits (.add (.var .n1) (.mul (.var .nx) (.var .ny)))⟩,
   ⟨"output.cpp", [110], [.eq .dim (.lit 3), .loop .ez (.lit 0) (.sub (.var .nz) (.lit 1)), .loop .ey (.lit 0) (.sub (.var .ny) (.lit 1)), .loop .ex (.lit 0) (.sub (.var .nx) (.lit 1)), .eq .n2 (.add (.add (.add (.mul (.var .ez) (.mul (.var .nx) (.var .ny))) (.mul (.add (.var .ey) (.lit 1)) (.var .nx))) (.var .ex)) (.lit 1))], .fits (.add (.var .n2) (.mul (.var .nx) (.var .ny)))⟩,
   ⟨"output.cpp", [111], [.eq .dim (.lit 3), .loop .ez (.lit 0) (.sub (.var .nz) (.lit 1)), .loop .ey (.lit 0) (.sub (.var .ny) (.lit 1)), .loop .ex (.lit 0) (.sub (.var .nx) (.lit 1)), .eq .n3 (.add (.add (.mul (.var .ez) (.mul (.var .nx) (.var .ny))) (.mul (.add (.var .ey) (.lit 1)) (.var .nx))) (.var .ex))], .fits (.add (.var .n3) (.mul (.var .nx) (.var .ny)))⟩,
   ⟨"output.cpp", [123], [.loop .e (.lit 0) (.var .nelem), .eq .ce (.mul (.var .npe) (.add (.var .e) (.lit 1)))], .fits (.add (.var .ce) (.var .npe))⟩,
   ⟨"output.cpp", [142, 151], [.eq .dim (.lit 2), .loop .n (.lit 0) (.var .nn)], .fits (.add (.mul (.var .n) (.var .dim)) (.lit 0))⟩,
   ⟨"output.cpp", [142, 151], [.eq .dim (.lit 2), .loop .n (.lit 0) (.var .nn)], .fits (.add (.mul (.var .n) (.var .dim)) (.lit 1))⟩,
   ⟨"output.cpp", [144, 153], [.eq .dim (.lit 3), .loop .n (.lit 0) (.var .nn)], .fits (.add (.mul (.var .n) (.var .dim)) (.lit 0))⟩,
   ⟨"output.cpp", [144, 153], [.eq .dim (.lit 3), .loop .n (.lit 0) (.var .nn)], .fits (.add (.mul (.var .n) (.var .dim)) (.lit 1))⟩,
   ⟨"output.cpp", [144, 153], [.eq .dim (.lit 3), .loop .n (.lit 0) (.var .nn)], .fits (.add (.mul (.var .n) (.var .dim)) (.lit 2))⟩,
   ⟨"output.cpp", [164, 172], [.loop .e (.lit 0) (.var .nelem), .loop .v (.lit 0) (.var .nvoi)], .fits (.add (.mul (.var .e) (.var .nvoi)) (.var .v))⟩,
   ⟨"output.cpp", [190, 191], [.eq .dim (.lit 3), .loop .e (.lit 0) (.var .nelem), .loop .gp (.lit 0) (.lit 8)], .fits (.add (.add (.mul (.mul (.var .e) (.lit 8)) (.lit 7)) (.mul (.var .gp) (.lit 7))) (.lit 0))⟩,
   ⟨"output.cpp", [192, 193], [.eq .dim (.lit 3), .loop .e (.lit 0) (.var .nelem), .loop .gp (.lit 0) (.lit 8)], .fits (.add (.add (.mul (.mul (.var .e) (.lit 8)) (.lit 7)) (.mul (.var .gp) (.lit 7))) (.lit 1))⟩,
   ⟨"output.cpp", [194, 195], [.eq .dim (.lit 3), .loop .e (.lit 0) (.var .nelem), .loop .gp (.lit 0) (.lit 8)], .fits (.add (.add (.mul (.mul (.var .e) (.lit 8)) (.lit 7)) (.mul (.var .gp) (.lit 7))) (.lit 2))⟩,
   ⟨"output.cpp", [196], [.eq .dim (.lit 3), .loop .e (.lit 0) (.var .nelem), .loop .gp (.lit 0) (.lit 8)], .fits (.add (.add (.mul (.mul (.var .e) (.lit 8)) (.lit 7)) (.mul (.var .gp) (.lit 7))) (.lit 3))⟩,
   ⟨"output.cpp", [196], [.eq .dim (.lit 3), .loop .e (.lit 0) (.var .nelem), .loop .gp (.lit 0) (.lit 8)], .fits (.add (.add (.mul (.mul (.var .e) (.lit 8)) (.lit 7)) (.mul (.var .gp) (.lit 7))) (.lit 4))⟩,
   ⟨"output.cpp", [196], [.eq .dim (.lit 3), .loop .e (.lit 0) (.var .nelem), .loop .gp (.lit 0) (.lit 8)], .fits (.add (.add (.mul (.mul (.var .e) (.lit 8)) (.lit 7)) (.mul (.var .gp) (.lit 7))) (.lit 5))⟩,
   ⟨"output.cpp", [210], [.eq .dim (.lit 3), .loop .e (.lit 0) (.var .nelem), .loop .gp (.lit 0) (.lit 8)], .fits (.add (.add (.mul (.mul (.var .e) (.lit 8)) (.lit 7)) (.mul (.var .gp) (.lit 7))) (.lit 6))⟩,
   ⟨"output.cpp", [252], [], .fits (.add (.lit 1) (.var .nvoi))⟩]

/-- Array accesses and arguments of /repo/src/output.cpp:29-285. -/
def outputUses0 : List Site :=
  [⟨"output.cpp", [35, 38], [.loop .i (.lit 0) (.var .num_int_vars)], .index "vars_old" (.var .i) (.var .num_int_vars)⟩,
   ⟨"output.cpp", [35, 278], [.loop .i (.lit 0) (.var .num_int_vars)], .index "int_vars_n" (.var .i) (.var .num_int_vars)⟩,
   ⟨"output.cpp", [43], [], .extent "macro_strain" (.var .nvoi) (.lit 6)⟩,
   ⟨"output.cpp", [142], [.eq .dim (.lit 2), .loop .n (.lit 0) (.var .nn)], .index "u" (.add (.mul (.var .n) (.var .dim)) (.lit 0)) (.mul (.var .nn) (.var .dim))⟩,
   ⟨"output.cpp", [142], [.eq .dim (.lit 2), .loop .n (.lit 0) (.var .nn)], .index "u" (.add (.mul (.var .n) (.var .dim)) (.lit 1)) (.mul (.var .nn) (.var .dim))⟩,
   ⟨"output.cpp", [144], [.eq .dim (.lit 3), .loop .n (.lit 0) (.var .nn)], .index "u" (.add (.mul (.var .n) (.var .dim)) (.lit 0)) (.mul (.var .nn) (.var .dim))⟩,
   ⟨"output.cpp", [144], [.eq .dim (.lit 3), .loop .n (.lit 0) (.var .nn)], .index "u" (.add (.mul (.var .n) (.var .dim)) (.lit 1)) (.mul (.var .nn) (.var .dim))⟩,
   ⟨"output.cpp", [144], [.eq .dim (.lit 3), .loop .n (.lit 0) (.var .nn)], .index "u" (.add (.mul (.var .n) (.var .dim)) (.lit 2)) (.mul (.var .nn) (.var .dim))⟩,
   ⟨"output.cpp", [151], [.eq .dim (.lit 2), .loop .n (.lit 0) (.var .nn)], .index "b" (.add (.mul (.var .n) (.var .dim)) (.lit 0)) (.mul (.var .nn) (.var .dim))⟩,
   ⟨"output.cpp", [151], [.eq .dim (.lit 2), .loop .n (.lit 0) (.var .nn)], .index "b" (.add (.mul (.var .n) (.var .dim)) (.lit 1)) (.mul (.var .nn) (.var .dim))⟩,
   ⟨"output.cpp", [153], [.eq .dim (.lit 3), .loop .n (.lit 0) (.var .nn)], .index "b" (.add (.mul (.var .n) (.var .dim)) (.lit 0)) (.mul (.var .nn) (.var .dim))⟩,
   ⟨"output.cpp", [153], [.eq .dim (.lit 3), .loop .n (.lit 0) (.var .nn)], .index "b" (.add (.mul (.var .n) (.var .dim)) (.lit 1)) (.mul (.var .nn) (.var .dim))⟩,
   ⟨"output.cpp", [153], [.eq .dim (.lit 3), .loop .n (.lit 0) (.var .nn)], .index "b" (.add (.mul (.var .n) (.var .dim)) (.lit 2)) (.mul (.var .nn) (.var .dim))⟩,
   ⟨"output.cpp", [164], [.loop .e (.lit 0) (.var .nelem), .loop .v (.lit 0) (.var .nvoi)], .index "elem_strain" (.add (.mul (.var .e) (.var .nvoi)) (.var .v)) (.mul (.var .nelem) (.var .nvoi))⟩,
   ⟨"output.cpp", [172], [.loop .e (.lit 0) (.var .nelem), .loop .v (.lit 0) (.var .nvoi)], .index "elem_stress" (.add (.mul (.var .e) (.var .nvoi)) (.var .v)) (.mul (.var .nelem) (.var .nvoi))⟩,
   ⟨"output.cpp", [179], [.loop .e (.lit 0) (.var .nelem)], .index "elem_type" (.var .e) (.var .nelem)⟩,
   ⟨"output.cpp", [190, 191], [.eq .dim (.lit 3), .loop .e (.lit 0) (.var .nelem), .loop .gp (.lit 0) (.lit 8)], .index "vars_old" (.add (.add (.mul (.mul (.var .e) (.lit 8)) (.lit 7)) (.mul (.var .gp) (.lit 7))) (.lit 0)) (.var .num_int_vars)⟩,
   ⟨"output.cpp", [192, 193], [.eq .dim (.lit 3), .loop .e (.lit 0) (.var .nelem), .loop .gp (.lit 0) (.lit 8)], .index "vars_old" (.add (.add (.mul (.mul (.var .e) (.lit 8)) (.lit 7)) (.mul (.var .gp) (.lit 7))) (.lit 1)) (.var .num_int_vars)⟩,
   ⟨"output.cpp", [194, 195], [.eq .dim (.lit 3), .loop .e (.lit 0) (.var .nelem), .loop .gp (.lit 0) (.lit 8)], .index "vars_old" (.add (.add (.mul (.mul (.var .e) (.lit 8)) (.lit 7)) (.mul (.var .gp) (.lit 7))) (.lit 2)) (.var .num_int_vars)⟩,
   ⟨"output.cpp", [196], [.eq .dim (.lit 3), .loop .e (.lit 0) (.var .nelem), .loop .gp (.lit 0) (.lit 8)], .index "vars_old" (.add (.add (.mul (.mul (.var .e) (.lit 8)) (.lit 7)) (.mul (.var .gp) (.lit 7))) (.lit 3)) (.var .num_int_vars)⟩,
   ⟨"output.cpp", [196], [.eq .dim (.lit 3), .loop .e (.lit 0) (.var .nelem), .loop .gp (.lit 0) (.lit 8)], .index "vars_old" (.add (.add (.mul (.mul (.var .e) (.lit 8)) (.lit 7)) (.mul (.var .gp) (.lit 7))) (.lit 4)) (.var .num_int_vars)⟩,
   ⟨"output.cpp", [196], [.eq .dim (.lit 3), .loop .e (.lit 0) (.var .nelem), .loop .gp (.lit 0) (.lit 8)], .index "vars_old" (.add (.add (.mul (.mul (.var .e) (.lit 8)) (.lit 7)) (.mul (.var .gp) (.lit 7))) (.lit 5)) (.var .num_int_vars)⟩,
   ⟨"output.cpp", [210], [.eq .dim (.lit 3), .loop .e (.lit 0) (.var .nelem), .loop .gp (.lit 0) (.lit 8)], .index "vars_old" (.add (.add (.mul (.mul (.var .e) (.lit 8)) (.lit 7)) (.mul (.var .gp) (.lit 7))) (.lit 6)) (.var .num_int_vars)⟩,
   ⟨"output.cpp", [253], [.loop .i (.lit 0) (.add (.lit 1) (.var .nvoi))], .index "nr_its" (.var .i) (.lit 7)⟩,
   ⟨"output.cpp", [254], [.loop .i (.lit 0) (.add (.lit 1) (.var .nvoi))], .index "nr_err" (.var .i) (.lit 7)⟩,
   ⟨"output.cpp", [264], [.loop .i (.lit 0) (.lit 6)], .index "macro_strain" (.var .i) (.lit 6)⟩,
   ⟨"output.cpp", [266], [.loop .i (.lit 0) (.lit 6)], .index "macro_stress" (.var .i) (.lit 6)⟩,
   ⟨"output.cpp", [268], [.loop .i (.lit 0) (.lit 36)], .index "macro_ctan" (.var .i) (.lit 36)⟩]

/-- All integer expressions. -/
def intSites : List Site :=
  microInts0 ++ assemblyInts0 ++ assemblyInts1 ++ solveInts0 ++ homogenizeInts0 ++ outputInts0

/-- All array accesses and arguments. -/
def useSites : List Site :=
  microUses0 ++
  assemblyUses0 ++
  assemblyUses1 ++
  assemblyUses2 ++
  assemblyUses3 ++
  assemblyUses4 ++
  assemblyUses5 ++
  solveUses0 ++
  homogenizeUses0 ++
  outputUses0

end Verif
