import Verif.Model.Int32

/-!
# The integer expressions of /repo/src/ell.cpp

Generated by `tools/gen_int32.py` from the text of /repo/src/ell.cpp:40-1876; see there for what is extracted.
-/

namespace Verif

/-- Expressions of functions used in both dimensions: /repo/src/ell.cpp:40-327. -/
def occCommon : List Occ :=
  -- nrow
  [⟨[42, 51, 68, 69, 86, 102, 132, 133, 134, 135, 136, 150, 156, 163, 167, 171, 175, 181, 185, 223, 224, 225, 226, 227, 246, 252, 258, 262, 266, 270, 276, 280, 310, 319], .var .nrow⟩,
  -- nnz
   ⟨[43, 53, 89, 312, 321], .var .nnz⟩,
  -- row * nnz + slot
   ⟨[44, 54, 90, 92, 93, 313, 322], .add (.mul (.var .row) (.var .nnz)) (.var .slot)⟩,
  -- nn
   ⟨[72, 142, 232, 238], .var .nn⟩,
  -- nF
   ⟨[73, 143, 233, 239], .var .nF⟩,
  -- node * nF + d
   ⟨[74, 144, 234, 240], .add (.mul (.var .node) (.var .nF)) (.var .d)⟩]

/-- Expressions of the two-dimensional functions: /repo/src/ell.cpp:58-863. -/
def occ2D : List Occ :=
  -- nx * ny
  [⟨[71, 140, 709], .mul (.var .nx) (.var .ny)⟩,
  -- node * nF * nnz + 4 * nF + d * nnz + d
   ⟨[74, 144, 234], .add (.add (.add (.mul (.mul (.var .node) (.var .nF)) (.var .nnz)) (.mul (.lit 4) (.var .nF))) (.mul (.var .d) (.var .nnz))) (.var .d)⟩,
  -- nnz
   ⟨[336, 405, 411, 420, 429, 438], .var .nnz⟩,
  -- ey * nx + ex
   ⟨[342], .add (.mul (.var .ey) (.var .nx)) (.var .ex)⟩,
  -- ey * nx + ex + 1
   ⟨[343], .add (.add (.mul (.var .ey) (.var .nx)) (.var .ex)) (.lit 1)⟩,
  -- (ey + 1) * nx + ex + 1
   ⟨[344], .add (.add (.mul (.add (.var .ey) (.lit 1)) (.var .nx)) (.var .ex)) (.lit 1)⟩,
  -- (ey + 1) * nx + ex
   ⟨[345], .add (.mul (.add (.var .ey) (.lit 1)) (.var .nx)) (.var .ex)⟩,
  -- nF * nnz
   ⟨[347], .mul (.var .nF) (.var .nnz)⟩,
  -- npe * nF
   ⟨[348], .mul (.var .npe) (.var .nF)⟩,
  -- npe * nF * nF
   ⟨[349], .mul (.mul (.var .npe) (.var .nF)) (.var .nF)⟩,
  -- nF
   ⟨[351, 354, 409, 418, 427, 436, 448, 452, 459, 463, 471, 475, 484, 488, 497, 500, 508, 511, 518, 521, 528, 531, 725, 726, 739, 740, 753, 754, 767, 768, 783, 784, 799, 800, 815, 816, 831, 832, 847, 848], .var .nF⟩,
  -- npe
   ⟨[352], .var .npe⟩,
  -- node * fnnz + d1 * nnz + l * nF + d2
   ⟨[355], .add (.add (.add (.mul (.var .node) (.var .fnnz)) (.mul (.var .d1) (.var .nnz))) (.mul (.var .l) (.var .nF))) (.var .d2)⟩,
  -- ak * pf2 + d1 * pf + an * nF + d2
   ⟨[356], .add (.add (.add (.mul (.var .ak) (.var .pf2)) (.mul (.var .d1) (.var .pf))) (.mul (.var .an) (.var .nF))) (.var .d2)⟩,
  -- nx
   ⟨[410, 419, 782, 814, 830], .var .nx⟩,
  -- bx * nF * nnz + d * nnz + slot
   ⟨[412], .add (.add (.mul (.mul (.var .bx) (.var .nF)) (.var .nnz)) (.mul (.var .d) (.var .nnz))) (.var .slot)⟩,
  -- bx * nF * nnz + d * nnz + 4 * nF + d
   ⟨[414], .add (.add (.add (.mul (.mul (.var .bx) (.var .nF)) (.var .nnz)) (.mul (.var .d) (.var .nnz))) (.mul (.lit 4) (.var .nF))) (.var .d)⟩,
  -- (bx + (ny - 1) * nx) * nF * nnz + d * nnz + slot
   ⟨[421], .add (.add (.mul (.mul (.add (.var .bx) (.mul (.sub (.var .ny) (.lit 1)) (.var .nx))) (.var .nF)) (.var .nnz)) (.mul (.var .d) (.var .nnz))) (.var .slot)⟩,
  -- (bx + (ny - 1) * nx) * nF * nnz + d * nnz + 4 * nF + d
   ⟨[423], .add (.add (.add (.mul (.mul (.add (.var .bx) (.mul (.sub (.var .ny) (.lit 1)) (.var .nx))) (.var .nF)) (.var .nnz)) (.mul (.var .d) (.var .nnz))) (.mul (.lit 4) (.var .nF))) (.var .d)⟩,
  -- ny - 2
   ⟨[428, 437], .sub (.var .ny) (.lit 2)⟩,
  -- (by + 1) * nx * nF * nnz + d * nnz + slot
   ⟨[430], .add (.add (.mul (.mul (.mul (.add (.var .by) (.lit 1)) (.var .nx)) (.var .nF)) (.var .nnz)) (.mul (.var .d) (.var .nnz))) (.var .slot)⟩,
  -- (by + 1) * nx * nF * nnz + d * nnz + 4 * nF + d
   ⟨[432], .add (.add (.add (.mul (.mul (.mul (.add (.var .by) (.lit 1)) (.var .nx)) (.var .nF)) (.var .nnz)) (.mul (.var .d) (.var .nnz))) (.mul (.lit 4) (.var .nF))) (.var .d)⟩,
  -- ((by + 2) * nx - 1) * nF * nnz + d * nnz + slot
   ⟨[439], .add (.add (.mul (.mul (.sub (.mul (.add (.var .by) (.lit 2)) (.var .nx)) (.lit 1)) (.var .nF)) (.var .nnz)) (.mul (.var .d) (.var .nnz))) (.var .slot)⟩,
  -- ((by + 2) * nx - 1) * nF * nnz + d * nnz + 4 * nF + d
   ⟨[441], .add (.add (.add (.mul (.mul (.sub (.mul (.add (.var .by) (.lit 2)) (.var .nx)) (.lit 1)) (.var .nF)) (.var .nnz)) (.mul (.var .d) (.var .nnz))) (.mul (.lit 4) (.var .nF))) (.var .d)⟩,
  -- nx + 2
   ⟨[449], .add (.var .nx) (.lit 2)⟩,
  -- nx - 4
   ⟨[450, 461], .sub (.var .nx) (.lit 4)⟩,
  -- node * nF * nnz + d1 * nnz + l * nF + d2
   ⟨[453, 476, 489, 501, 512, 522, 532], .add (.add (.add (.mul (.mul (.var .node) (.var .nF)) (.var .nnz)) (.mul (.var .d1) (.var .nnz))) (.mul (.var .l) (.var .nF))) (.var .d2)⟩,
  -- node + 1
   ⟨[454, 465, 830], .add (.var .node) (.lit 1)⟩,
  -- (ny - 2) * nx + 2
   ⟨[460], .add (.mul (.sub (.var .ny) (.lit 2)) (.var .nx)) (.lit 2)⟩,
  -- node * nF * nnz + d1 * nnz + 6 * nF + d2
   ⟨[464], .add (.add (.add (.mul (.mul (.var .node) (.var .nF)) (.var .nnz)) (.mul (.var .d1) (.var .nnz))) (.mul (.lit 6) (.var .nF))) (.var .d2)⟩,
  -- 2 * nx + 1
   ⟨[472], .add (.mul (.lit 2) (.var .nx)) (.lit 1)⟩,
  -- ny - 4
   ⟨[473, 486], .sub (.var .ny) (.lit 4)⟩,
  -- node + nx
   ⟨[477, 490], .add (.var .node) (.var .nx)⟩,
  -- 4 * nx - 1
   ⟨[485], .sub (.mul (.lit 4) (.var .nx)) (.lit 1)⟩,
  -- nx + 1
   ⟨[498], .add (.var .nx) (.lit 1)⟩,
  -- 2 * nx - 2
   ⟨[509], .sub (.mul (.lit 2) (.var .nx)) (.lit 2)⟩,
  -- (ny - 1) * nx - 1
   ⟨[519], .sub (.mul (.sub (.var .ny) (.lit 1)) (.var .nx)) (.lit 1)⟩,
  -- (ny - 2) * nx + 1
   ⟨[529], .add (.mul (.sub (.var .ny) (.lit 2)) (.var .nx)) (.lit 1)⟩,
  -- 9 * nF
   ⟨[710], .mul (.lit 9) (.var .nF)⟩,
  -- nn * nF
   ⟨[711], .mul (.var .nn) (.var .nF)⟩,
  -- nnz * nrow
   ⟨[716, 717], .mul (.var .nnz) (.var .nrow)⟩,
  -- nn
   ⟨[720], .var .nn⟩,
  -- node * nF * nnz
   ⟨[722], .mul (.mul (.var .node) (.var .nF)) (.var .nnz)⟩,
  -- 0 * nF + nnz * d1 + d2
   ⟨[727, 741, 755, 769, 785, 801, 817, 833, 849], .add (.add (.mul (.lit 0) (.var .nF)) (.mul (.var .nnz) (.var .d1))) (.var .d2)⟩,
  -- 1 * nF + nnz * d1 + d2
   ⟨[728, 742, 756, 770, 786, 802, 818, 834, 850], .add (.add (.mul (.lit 1) (.var .nF)) (.mul (.var .nnz) (.var .d1))) (.var .d2)⟩,
  -- 2 * nF + nnz * d1 + d2
   ⟨[729, 743, 757, 771, 787, 803, 819, 835, 851], .add (.add (.mul (.lit 2) (.var .nF)) (.mul (.var .nnz) (.var .d1))) (.var .d2)⟩,
  -- 3 * nF + nnz * d1 + d2
   ⟨[730, 744, 758, 772, 788, 804, 820, 836, 852], .add (.add (.mul (.lit 3) (.var .nF)) (.mul (.var .nnz) (.var .d1))) (.var .d2)⟩,
  -- 4 * nF + nnz * d1 + d2
   ⟨[731, 745, 759, 773, 789, 805, 821, 837, 853], .add (.add (.mul (.lit 4) (.var .nF)) (.mul (.var .nnz) (.var .d1))) (.var .d2)⟩,
  -- (node) * nF + d2
   ⟨[731, 745, 759, 773, 789, 805, 821, 837, 840, 853], .add (.mul (.var .node) (.var .nF)) (.var .d2)⟩,
  -- 5 * nF + nnz * d1 + d2
   ⟨[732, 746, 760, 774, 790, 806, 822, 838, 854], .add (.add (.mul (.lit 5) (.var .nF)) (.mul (.var .nnz) (.var .d1))) (.var .d2)⟩,
  -- (node + 1) * nF + d2
   ⟨[732, 774, 790, 806, 822, 854], .add (.mul (.add (.var .node) (.lit 1)) (.var .nF)) (.var .d2)⟩,
  -- 6 * nF + nnz * d1 + d2
   ⟨[733, 747, 761, 775, 791, 807, 823, 839, 855], .add (.add (.mul (.lit 6) (.var .nF)) (.mul (.var .nnz) (.var .d1))) (.var .d2)⟩,
  -- 7 * nF + nnz * d1 + d2
   ⟨[734, 748, 762, 776, 792, 808, 824, 840, 856], .add (.add (.mul (.lit 7) (.var .nF)) (.mul (.var .nnz) (.var .d1))) (.var .d2)⟩,
  -- (node + nx) * nF + d2
   ⟨[734, 748, 792, 824, 856], .add (.mul (.add (.var .node) (.var .nx)) (.var .nF)) (.var .d2)⟩,
  -- 8 * nF + nnz * d1 + d2
   ⟨[735, 749, 763, 777, 793, 809, 825, 841, 857], .add (.add (.mul (.lit 8) (.var .nF)) (.mul (.var .nnz) (.var .d1))) (.var .d2)⟩,
  -- (node + nx + 1) * nF + d2
   ⟨[735, 793, 825, 857], .add (.mul (.add (.add (.var .node) (.var .nx)) (.lit 1)) (.var .nF)) (.var .d2)⟩,
  -- nx - 1
   ⟨[738], .sub (.var .nx) (.lit 1)⟩,
  -- (node - 1) * nF + d2
   ⟨[744, 758, 788, 804, 836, 852], .add (.mul (.sub (.var .node) (.lit 1)) (.var .nF)) (.var .d2)⟩,
  -- (node + nx - 1) * nF + d2
   ⟨[747, 791, 839, 855], .add (.mul (.sub (.add (.var .node) (.var .nx)) (.lit 1)) (.var .nF)) (.var .d2)⟩,
  -- nx * ny - 1
   ⟨[752], .sub (.mul (.var .nx) (.var .ny)) (.lit 1)⟩,
  -- (node - nx - 1) * nF + d2
   ⟨[755, 801, 833, 849], .add (.mul (.sub (.sub (.var .node) (.var .nx)) (.lit 1)) (.var .nF)) (.var .d2)⟩,
  -- (node - nx) * nF + d2
   ⟨[756, 770, 802, 818, 834, 850], .add (.mul (.sub (.var .node) (.var .nx)) (.var .nF)) (.var .d2)⟩,
  -- (ny - 1) * nx
   ⟨[766, 798], .mul (.sub (.var .ny) (.lit 1)) (.var .nx)⟩,
  -- (node - nx + 1) * nF + d2
   ⟨[771, 803, 819, 851], .add (.mul (.add (.sub (.var .node) (.var .nx)) (.lit 1)) (.var .nF)) (.var .d2)⟩]

/-- Expressions of the three-dimensional functions: /repo/src/ell.cpp:207-1876. -/
def occ3D : List Occ :=
  -- node * nF * nnz + 13 * nF + d * nnz + d
  [⟨[240], .add (.add (.add (.mul (.mul (.var .node) (.var .nF)) (.var .nnz)) (.mul (.lit 13) (.var .nF))) (.mul (.var .d) (.var .nnz))) (.var .d)⟩,
  -- nnz
   ⟨[368, 540, 549, 562, 575, 588, 601, 614], .var .nnz⟩,
  -- ez * (nx * ny) + ey * nx + ex
   ⟨[378], .add (.add (.mul (.var .ez) (.mul (.var .nx) (.var .ny))) (.mul (.var .ey) (.var .nx))) (.var .ex)⟩,
  -- ez * (nx * ny) + ey * nx + ex + 1
   ⟨[379], .add (.add (.add (.mul (.var .ez) (.mul (.var .nx) (.var .ny))) (.mul (.var .ey) (.var .nx))) (.var .ex)) (.lit 1)⟩,
  -- ez * (nx * ny) + (ey + 1) * nx + ex + 1
   ⟨[380], .add (.add (.add (.mul (.var .ez) (.mul (.var .nx) (.var .ny))) (.mul (.add (.var .ey) (.lit 1)) (.var .nx))) (.var .ex)) (.lit 1)⟩,
  -- ez * (nx * ny) + (ey + 1) * nx + ex
   ⟨[381], .add (.add (.mul (.var .ez) (.mul (.var .nx) (.var .ny))) (.mul (.add (.var .ey) (.lit 1)) (.var .nx))) (.var .ex)⟩,
  -- (ez * (nx * ny) + ey * nx + ex) + nx * ny
   ⟨[384], .add (.add (.add (.mul (.var .ez) (.mul (.var .nx) (.var .ny))) (.mul (.var .ey) (.var .nx))) (.var .ex)) (.mul (.var .nx) (.var .ny))⟩,
  -- (ez * (nx * ny) + ey * nx + ex + 1) + nx * ny
   ⟨[385], .add (.add (.add (.add (.mul (.var .ez) (.mul (.var .nx) (.var .ny))) (.mul (.var .ey) (.var .nx))) (.var .ex)) (.lit 1)) (.mul (.var .nx) (.var .ny))⟩,
  -- (ez * (nx * ny) + (ey + 1) * nx + ex + 1) + nx * ny
   ⟨[386], .add (.add (.add (.add (.mul (.var .ez) (.mul (.var .nx) (.var .ny))) (.mul (.add (.var .ey) (.lit 1)) (.var .nx))) (.var .ex)) (.lit 1)) (.mul (.var .nx) (.var .ny))⟩,
  -- (ez * (nx * ny) + (ey + 1) * nx + ex) + nx * ny
   ⟨[387], .add (.add (.add (.mul (.var .ez) (.mul (.var .nx) (.var .ny))) (.mul (.add (.var .ey) (.lit 1)) (.var .nx))) (.var .ex)) (.mul (.var .nx) (.var .ny))⟩,
  -- nF * nnz
   ⟨[389], .mul (.var .nF) (.var .nnz)⟩,
  -- npe * nF
   ⟨[390], .mul (.var .npe) (.var .nF)⟩,
  -- npe * nF * nF
   ⟨[391], .mul (.mul (.var .npe) (.var .nF)) (.var .nF)⟩,
  -- nF
   ⟨[393, 396, 545, 558, 571, 584, 597, 610, 624, 629, 637, 642, 651, 656, 665, 670, 679, 684, 693, 698, 881, 882, 916, 917, 951, 952, 986, 987, 1021, 1022, 1056, 1057, 1091, 1092, 1126, 1127, 1162, 1163, 1199, 1200, 1236, 1237, 1273, 1274, 1310, 1311, 1347, 1348, 1384, 1385, 1421, 1422, 1458, 1459, 1495, 1496, 1532, 1533, 1569, 1570, 1607, 1608, 1646, 1647, 1685, 1686, 1724, 1725, 1763, 1764, 1802, 1803, 1842, 1843], .var .nF⟩,
  -- npe
   ⟨[394], .var .npe⟩,
  -- node * fnnz + d1 * nnz + l * nF + d2
   ⟨[397], .add (.add (.add (.mul (.var .node) (.var .fnnz)) (.mul (.var .d1) (.var .nnz))) (.mul (.var .l) (.var .nF))) (.var .d2)⟩,
  -- ak * pf2 + d1 * pf + an * nF + d2
   ⟨[398], .add (.add (.add (.mul (.var .ak) (.var .pf2)) (.mul (.var .d1) (.var .pf))) (.mul (.var .an) (.var .nF))) (.var .d2)⟩,
  -- nx
   ⟨[546, 559, 572, 585], .var .nx⟩,
  -- ny
   ⟨[547, 560, 598, 611], .var .ny⟩,
  -- ((0)*nx*ny + (j)*nx + (i))
   ⟨[548, 1605], .add (.add (.mul (.mul (.lit 0) (.var .nx)) (.var .ny)) (.mul (.var .j) (.var .nx))) (.var .i)⟩,
  -- node * nF * nnz + d * nnz + slot
   ⟨[550, 563, 576, 589, 602, 615], .add (.add (.mul (.mul (.var .node) (.var .nF)) (.var .nnz)) (.mul (.var .d) (.var .nnz))) (.var .slot)⟩,
  -- node * nF * nnz + d * nnz + 13 * nF + d
   ⟨[552, 565, 578, 591, 604, 617], .add (.add (.add (.mul (.mul (.var .node) (.var .nF)) (.var .nnz)) (.mul (.var .d) (.var .nnz))) (.mul (.lit 13) (.var .nF))) (.var .d)⟩,
  -- ((nz - 1)*nx*ny + (j)*nx + (i))
   ⟨[561, 1644], .add (.add (.mul (.mul (.sub (.var .nz) (.lit 1)) (.var .nx)) (.var .ny)) (.mul (.var .j) (.var .nx))) (.var .i)⟩,
  -- nz
   ⟨[573, 586, 599, 612], .var .nz⟩,
  -- ((k)*nx*ny + (0)*nx + (i))
   ⟨[574, 1683], .add (.add (.mul (.mul (.var .k) (.var .nx)) (.var .ny)) (.mul (.lit 0) (.var .nx))) (.var .i)⟩,
  -- ((k)*nx*ny + (ny - 1)*nx + (i))
   ⟨[587, 1722], .add (.add (.mul (.mul (.var .k) (.var .nx)) (.var .ny)) (.mul (.sub (.var .ny) (.lit 1)) (.var .nx))) (.var .i)⟩,
  -- ((k)*nx*ny + (j)*nx + (0))
   ⟨[600, 1761], .add (.add (.mul (.mul (.var .k) (.var .nx)) (.var .ny)) (.mul (.var .j) (.var .nx))) (.lit 0)⟩,
  -- ((k)*nx*ny + (j)*nx + (nx - 1))
   ⟨[613, 1800], .add (.add (.mul (.mul (.var .k) (.var .nx)) (.var .ny)) (.mul (.var .j) (.var .nx))) (.sub (.var .nx) (.lit 1))⟩,
  -- nx - 1
   ⟨[625, 638, 652, 666, 1307, 1344, 1381, 1418, 1603, 1642, 1681, 1720, 1837], .sub (.var .nx) (.lit 1)⟩,
  -- ny - 1
   ⟨[626, 639, 680, 694, 1455, 1492, 1529, 1566, 1604, 1643, 1759, 1798, 1838], .sub (.var .ny) (.lit 1)⟩,
  -- ((1)*nx*ny + (j)*nx + (i))
   ⟨[627], .add (.add (.mul (.mul (.lit 1) (.var .nx)) (.var .ny)) (.mul (.var .j) (.var .nx))) (.var .i)⟩,
  -- node * nF * nnz + d1 * nnz + l * nF + d2
   ⟨[630, 643, 657, 671, 685, 699], .add (.add (.add (.mul (.mul (.var .node) (.var .nF)) (.var .nnz)) (.mul (.var .d1) (.var .nnz))) (.mul (.var .l) (.var .nF))) (.var .d2)⟩,
  -- ((nz - 2)*nx*ny + (j)*nx + (i))
   ⟨[640], .add (.add (.mul (.mul (.sub (.var .nz) (.lit 2)) (.var .nx)) (.var .ny)) (.mul (.var .j) (.var .nx))) (.var .i)⟩,
  -- nz - 1
   ⟨[653, 667, 681, 695, 1159, 1196, 1233, 1270, 1682, 1721, 1760, 1799, 1839], .sub (.var .nz) (.lit 1)⟩,
  -- ((k)*nx*ny + (1)*nx + (i))
   ⟨[654], .add (.add (.mul (.mul (.var .k) (.var .nx)) (.var .ny)) (.mul (.lit 1) (.var .nx))) (.var .i)⟩,
  -- ((k)*nx*ny + (ny - 2)*nx + (i))
   ⟨[668], .add (.add (.mul (.mul (.var .k) (.var .nx)) (.var .ny)) (.mul (.sub (.var .ny) (.lit 2)) (.var .nx))) (.var .i)⟩,
  -- ((k)*nx*ny + (j)*nx + (1))
   ⟨[682], .add (.add (.mul (.mul (.var .k) (.var .nx)) (.var .ny)) (.mul (.var .j) (.var .nx))) (.lit 1)⟩,
  -- ((k)*nx*ny + (j)*nx + (nx - 2))
   ⟨[696], .add (.add (.mul (.mul (.var .k) (.var .nx)) (.var .ny)) (.mul (.var .j) (.var .nx))) (.sub (.var .nx) (.lit 2))⟩,
  -- nx * ny * nz
   ⟨[867], .mul (.mul (.var .nx) (.var .ny)) (.var .nz)⟩,
  -- 27 * nF
   ⟨[868], .mul (.lit 27) (.var .nF)⟩,
  -- nn * nF
   ⟨[869], .mul (.var .nn) (.var .nF)⟩,
  -- nnz * nrow
   ⟨[875, 876], .mul (.var .nnz) (.var .nrow)⟩,
  -- ((0)*nx*ny + (0)*nx + (0))
   ⟨[879], .add (.add (.mul (.mul (.lit 0) (.var .nx)) (.var .ny)) (.mul (.lit 0) (.var .nx))) (.lit 0)⟩,
  -- node * nF * nnz
   ⟨[880, 915, 950, 985, 1020, 1055, 1090, 1125, 1161, 1198, 1235, 1272, 1309, 1346, 1383, 1420, 1457, 1494, 1531, 1568, 1606, 1645, 1684, 1723, 1762, 1801, 1841], .mul (.mul (.var .node) (.var .nF)) (.var .nnz)⟩,
  -- 0 * nF + nnz * d1 + d2
   ⟨[883, 918, 953, 988, 1023, 1058, 1093, 1128, 1164, 1201, 1238, 1275, 1312, 1349, 1386, 1423, 1460, 1497, 1534, 1571, 1609, 1648, 1687, 1726, 1765, 1804, 1844], .add (.add (.mul (.lit 0) (.var .nF)) (.mul (.var .nnz) (.var .d1))) (.var .d2)⟩,
  -- 1 * nF + nnz * d1 + d2
   ⟨[884, 919, 954, 989, 1024, 1059, 1094, 1129, 1165, 1202, 1239, 1276, 1313, 1350, 1387, 1424, 1461, 1498, 1535, 1572, 1610, 1649, 1688, 1727, 1766, 1805, 1845], .add (.add (.mul (.lit 1) (.var .nF)) (.mul (.var .nnz) (.var .d1))) (.var .d2)⟩,
  -- 2 * nF + nnz * d1 + d2
   ⟨[885, 920, 955, 990, 1025, 1060, 1095, 1130, 1166, 1203, 1240, 1277, 1314, 1351, 1388, 1425, 1462, 1499, 1536, 1573, 1611, 1650, 1689, 1728, 1767, 1806, 1846], .add (.add (.mul (.lit 2) (.var .nF)) (.mul (.var .nnz) (.var .d1))) (.var .d2)⟩,
  -- 3 * nF + nnz * d1 + d2
   ⟨[886, 921, 956, 991, 1026, 1061, 1096, 1131, 1167, 1204, 1241, 1278, 1315, 1352, 1389, 1426, 1463, 1500, 1537, 1574, 1612, 1651, 1690, 1729, 1768, 1807, 1847], .add (.add (.mul (.lit 3) (.var .nF)) (.mul (.var .nnz) (.var .d1))) (.var .d2)⟩,
  -- 4 * nF + nnz * d1 + d2
   ⟨[887, 922, 957, 992, 1027, 1062, 1097, 1132, 1168, 1205, 1242, 1279, 1316, 1353, 1390, 1427, 1464, 1501, 1538, 1575, 1613, 1652, 1691, 1730, 1769, 1808, 1848], .add (.add (.mul (.lit 4) (.var .nF)) (.mul (.var .nnz) (.var .d1))) (.var .d2)⟩,
  -- 5 * nF + nnz * d1 + d2
   ⟨[888, 923, 958, 993, 1028, 1063, 1098, 1133, 1169, 1206, 1243, 1280, 1317, 1354, 1391, 1428, 1465, 1502, 1539, 1576, 1614, 1653, 1692, 1731, 1770, 1809, 1849], .add (.add (.mul (.lit 5) (.var .nF)) (.mul (.var .nnz) (.var .d1))) (.var .d2)⟩,
  -- 6 * nF + nnz * d1 + d2
   ⟨[889, 924, 959, 994, 1029, 1064, 1099, 1134, 1170, 1207, 1244, 1281, 1318, 1355, 1392, 1429, 1466, 1503, 1540, 1577, 1615, 1654, 1693, 1732, 1771, 1810, 1850], .add (.add (.mul (.lit 6) (.var .nF)) (.mul (.var .nnz) (.var .d1))) (.var .d2)⟩,
  -- 7 * nF + nnz * d1 + d2
   ⟨[890, 925, 960, 995, 1030, 1065, 1100, 1135, 1171, 1208, 1245, 1282, 1319, 1356, 1393, 1430, 1467, 1504, 1541, 1578, 1616, 1655, 1694, 1733, 1772, 1811, 1851], .add (.add (.mul (.lit 7) (.var .nF)) (.mul (.var .nnz) (.var .d1))) (.var .d2)⟩,
  -- 8 * nF + nnz * d1 + d2
   ⟨[891, 926, 961, 996, 1031, 1066, 1101, 1136, 1172, 1209, 1246, 1283, 1320, 1357, 1394, 1431, 1468, 1505, 1542, 1579, 1617, 1656, 1695, 1734, 1773, 1812, 1852], .add (.add (.mul (.lit 8) (.var .nF)) (.mul (.var .nnz) (.var .d1))) (.var .d2)⟩,
  -- 9 * nF + nnz * d1 + d2
   ⟨[892, 927, 962, 997, 1032, 1067, 1102, 1137, 1173, 1210, 1247, 1284, 1321, 1358, 1395, 1432, 1469, 1506, 1543, 1580, 1618, 1657, 1696, 1735, 1774, 1813, 1853], .add (.add (.mul (.lit 9) (.var .nF)) (.mul (.var .nnz) (.var .d1))) (.var .d2)⟩,
  -- 10 * nF + nnz * d1 + d2
   ⟨[893, 928, 963, 998, 1033, 1068, 1103, 1138, 1174, 1211, 1248, 1285, 1322, 1359, 1396, 1433, 1470, 1507, 1544, 1581, 1619, 1658, 1697, 1736, 1775, 1814, 1854], .add (.add (.mul (.lit 10) (.var .nF)) (.mul (.var .nnz) (.var .d1))) (.var .d2)⟩,
  -- 11 * nF + nnz * d1 + d2
   ⟨[894, 929, 964, 999, 1034, 1069, 1104, 1139, 1175, 1212, 1249, 1286, 1323, 1360, 1397, 1434, 1471, 1508, 1545, 1582, 1620, 1659, 1698, 1737, 1776, 1815, 1855], .add (.add (.mul (.lit 11) (.var .nF)) (.mul (.var .nnz) (.var .d1))) (.var .d2)⟩,
  -- 12 * nF + nnz * d1 + d2
   ⟨[895, 930, 965, 1000, 1035, 1070, 1105, 1140, 1176, 1213, 1250, 1287, 1324, 1361, 1398, 1435, 1472, 1509, 1546, 1583, 1621, 1660, 1699, 1738, 1777, 1816, 1856], .add (.add (.mul (.lit 12) (.var .nF)) (.mul (.var .nnz) (.var .d1))) (.var .d2)⟩,
  -- 13 * nF + nnz * d1 + d2
   ⟨[896, 931, 966, 1001, 1036, 1071, 1106, 1141, 1177, 1214, 1251, 1288, 1325, 1362, 1399, 1436, 1473, 1510, 1547, 1584, 1622, 1661, 1700, 1739, 1778, 1817, 1857], .add (.add (.mul (.lit 13) (.var .nF)) (.mul (.var .nnz) (.var .d1))) (.var .d2)⟩,
  -- (node) * nF + d2
   ⟨[896, 931, 966, 1001, 1036, 1071, 1106, 1141, 1177, 1214, 1251, 1288, 1325, 1362, 1399, 1436, 1473, 1510, 1547, 1584, 1622, 1661, 1700, 1739, 1778, 1817, 1857], .add (.mul (.var .node) (.var .nF)) (.var .d2)⟩,
  -- 14 * nF + nnz * d1 + d2
   ⟨[897, 932, 967, 1002, 1037, 1072, 1107, 1142, 1178, 1215, 1252, 1289, 1326, 1363, 1400, 1437, 1474, 1511, 1548, 1585, 1623, 1662, 1701, 1740, 1779, 1818, 1858], .add (.add (.mul (.lit 14) (.var .nF)) (.mul (.var .nnz) (.var .d1))) (.var .d2)⟩,
  -- (node + 1) * nF + d2
   ⟨[897, 1002, 1037, 1142, 1178, 1289, 1326, 1363, 1400, 1437, 1474, 1585, 1623, 1662, 1701, 1740, 1779, 1858], .add (.mul (.add (.var .node) (.lit 1)) (.var .nF)) (.var .d2)⟩,
  -- 15 * nF + nnz * d1 + d2
   ⟨[898, 933, 968, 1003, 1038, 1073, 1108, 1143, 1179, 1216, 1253, 1290, 1327, 1364, 1401, 1438, 1475, 1512, 1549, 1586, 1624, 1663, 1702, 1741, 1780, 1819, 1859], .add (.add (.mul (.lit 15) (.var .nF)) (.mul (.var .nnz) (.var .d1))) (.var .d2)⟩,
  -- 16 * nF + nnz * d1 + d2
   ⟨[899, 934, 969, 1004, 1039, 1074, 1109, 1144, 1180, 1217, 1254, 1291, 1328, 1365, 1402, 1439, 1476, 1513, 1550, 1587, 1625, 1664, 1703, 1742, 1781, 1820, 1860], .add (.add (.mul (.lit 16) (.var .nF)) (.mul (.var .nnz) (.var .d1))) (.var .d2)⟩,
  -- (node + nx) * nF + d2
   ⟨[899, 934, 1039, 1074, 1180, 1217, 1328, 1439, 1476, 1513, 1550, 1587, 1625, 1664, 1703, 1781, 1820, 1860], .add (.mul (.add (.var .node) (.var .nx)) (.var .nF)) (.var .d2)⟩,
  -- 17 * nF + nnz * d1 + d2
   ⟨[900, 935, 970, 1005, 1040, 1075, 1110, 1145, 1181, 1218, 1255, 1292, 1329, 1366, 1403, 1440, 1477, 1514, 1551, 1588, 1626, 1665, 1704, 1743, 1782, 1821, 1861], .add (.add (.mul (.lit 17) (.var .nF)) (.mul (.var .nnz) (.var .d1))) (.var .d2)⟩,
  -- (node + nx + 1) * nF + d2
   ⟨[900, 1040, 1181, 1329, 1440, 1477, 1588, 1626, 1665, 1704, 1782, 1861], .add (.mul (.add (.add (.var .node) (.var .nx)) (.lit 1)) (.var .nF)) (.var .d2)⟩,
  -- 18 * nF + nnz * d1 + d2
   ⟨[901, 936, 971, 1006, 1041, 1076, 1111, 1146, 1182, 1219, 1256, 1293, 1330, 1367, 1404, 1441, 1478, 1515, 1552, 1589, 1627, 1666, 1705, 1744, 1783, 1822, 1862], .add (.add (.mul (.lit 18) (.var .nF)) (.mul (.var .nnz) (.var .d1))) (.var .d2)⟩,
  -- 19 * nF + nnz * d1 + d2
   ⟨[902, 937, 972, 1007, 1042, 1077, 1112, 1147, 1183, 1220, 1257, 1294, 1331, 1368, 1405, 1442, 1479, 1516, 1553, 1590, 1628, 1667, 1706, 1745, 1784, 1823, 1863], .add (.add (.mul (.lit 19) (.var .nF)) (.mul (.var .nnz) (.var .d1))) (.var .d2)⟩,
  -- 20 * nF + nnz * d1 + d2
   ⟨[903, 938, 973, 1008, 1043, 1078, 1113, 1148, 1184, 1221, 1258, 1295, 1332, 1369, 1406, 1443, 1480, 1517, 1554, 1591, 1629, 1668, 1707, 1746, 1785, 1824, 1864], .add (.add (.mul (.lit 20) (.var .nF)) (.mul (.var .nnz) (.var .d1))) (.var .d2)⟩,
  -- 21 * nF + nnz * d1 + d2
   ⟨[904, 939, 974, 1009, 1044, 1079, 1114, 1149, 1185, 1222, 1259, 1296, 1333, 1370, 1407, 1444, 1481, 1518, 1555, 1592, 1630, 1669, 1708, 1747, 1786, 1825, 1865], .add (.add (.mul (.lit 21) (.var .nF)) (.mul (.var .nnz) (.var .d1))) (.var .d2)⟩,
  -- 22 * nF + nnz * d1 + d2
   ⟨[905, 940, 975, 1010, 1045, 1080, 1115, 1150, 1186, 1223, 1260, 1297, 1334, 1371, 1408, 1445, 1482, 1519, 1556, 1593, 1631, 1670, 1709, 1748, 1787, 1826, 1866], .add (.add (.mul (.lit 22) (.var .nF)) (.mul (.var .nnz) (.var .d1))) (.var .d2)⟩,
  -- (node + (nx * ny)) * nF + d2
   ⟨[905, 940, 975, 1010, 1186, 1223, 1260, 1297, 1334, 1371, 1482, 1519, 1631, 1709, 1748, 1787, 1826, 1866], .add (.mul (.add (.var .node) (.mul (.var .nx) (.var .ny))) (.var .nF)) (.var .d2)⟩,
  -- 23 * nF + nnz * d1 + d2
   ⟨[906, 941, 976, 1011, 1046, 1081, 1116, 1151, 1187, 1224, 1261, 1298, 1335, 1372, 1409, 1446, 1483, 1520, 1557, 1594, 1632, 1671, 1710, 1749, 1788, 1827, 1867], .add (.add (.mul (.lit 23) (.var .nF)) (.mul (.var .nnz) (.var .d1))) (.var .d2)⟩,
  -- (node + (nx * ny) + 1) * nF + d2
   ⟨[906, 1011, 1187, 1298, 1335, 1372, 1483, 1632, 1710, 1749, 1788, 1867], .add (.mul (.add (.add (.var .node) (.mul (.var .nx) (.var .ny))) (.lit 1)) (.var .nF)) (.var .d2)⟩,
  -- 24 * nF + nnz * d1 + d2
   ⟨[907, 942, 977, 1012, 1047, 1082, 1117, 1152, 1188, 1225, 1262, 1299, 1336, 1373, 1410, 1447, 1484, 1521, 1558, 1595, 1633, 1672, 1711, 1750, 1789, 1828, 1868], .add (.add (.mul (.lit 24) (.var .nF)) (.mul (.var .nnz) (.var .d1))) (.var .d2)⟩,
  -- 25 * nF + nnz * d1 + d2
   ⟨[908, 943, 978, 1013, 1048, 1083, 1118, 1153, 1189, 1226, 1263, 1300, 1337, 1374, 1411, 1448, 1485, 1522, 1559, 1596, 1634, 1673, 1712, 1751, 1790, 1829, 1869], .add (.add (.mul (.lit 25) (.var .nF)) (.mul (.var .nnz) (.var .d1))) (.var .d2)⟩,
  -- (node + (nx * ny) + nx) * nF + d2
   ⟨[908, 943, 1189, 1226, 1337, 1485, 1522, 1634, 1712, 1790, 1829, 1869], .add (.mul (.add (.add (.var .node) (.mul (.var .nx) (.var .ny))) (.var .nx)) (.var .nF)) (.var .d2)⟩,
  -- 26 * nF + nnz * d1 + d2
   ⟨[909, 944, 979, 1014, 1049, 1084, 1119, 1154, 1190, 1227, 1264, 1301, 1338, 1375, 1412, 1449, 1486, 1523, 1560, 1597, 1635, 1674, 1713, 1752, 1791, 1830, 1870], .add (.add (.mul (.lit 26) (.var .nF)) (.mul (.var .nnz) (.var .d1))) (.var .d2)⟩,
  -- (node + (nx * ny) + nx + 1) * nF + d2
   ⟨[909, 1190, 1338, 1486, 1635, 1713, 1791, 1870], .add (.mul (.add (.add (.add (.var .node) (.mul (.var .nx) (.var .ny))) (.var .nx)) (.lit 1)) (.var .nF)) (.var .d2)⟩,
  -- ((0)*nx*ny + (0)*nx + (nx - 1))
   ⟨[914], .add (.add (.mul (.mul (.lit 0) (.var .nx)) (.var .ny)) (.mul (.lit 0) (.var .nx))) (.sub (.var .nx) (.lit 1))⟩,
  -- (node - 1) * nF + d2
   ⟨[930, 965, 1070, 1105, 1213, 1250, 1324, 1361, 1398, 1435, 1509, 1546, 1621, 1660, 1699, 1738, 1816, 1856], .add (.mul (.sub (.var .node) (.lit 1)) (.var .nF)) (.var .d2)⟩,
  -- (node + nx - 1) * nF + d2
   ⟨[933, 1073, 1216, 1327, 1438, 1512, 1549, 1624, 1663, 1702, 1819, 1859], .add (.mul (.sub (.add (.var .node) (.var .nx)) (.lit 1)) (.var .nF)) (.var .d2)⟩,
  -- (node + (nx * ny) - 1) * nF + d2
   ⟨[939, 974, 1222, 1259, 1333, 1370, 1518, 1630, 1708, 1747, 1825, 1865], .add (.mul (.sub (.add (.var .node) (.mul (.var .nx) (.var .ny))) (.lit 1)) (.var .nF)) (.var .d2)⟩,
  -- (node + (nx * ny) + nx - 1) * nF + d2
   ⟨[942, 1225, 1336, 1521, 1633, 1711, 1828, 1868], .add (.mul (.sub (.add (.add (.var .node) (.mul (.var .nx) (.var .ny))) (.var .nx)) (.lit 1)) (.var .nF)) (.var .d2)⟩,
  -- ((0)*nx*ny + (ny - 1)*nx + (nx - 1))
   ⟨[949], .add (.add (.mul (.mul (.lit 0) (.var .nx)) (.var .ny)) (.mul (.sub (.var .ny) (.lit 1)) (.var .nx))) (.sub (.var .nx) (.lit 1))⟩,
  -- (node - nx - 1) * nF + d2
   ⟨[962, 1102, 1247, 1358, 1395, 1506, 1543, 1618, 1657, 1735, 1813, 1853], .add (.mul (.sub (.sub (.var .node) (.var .nx)) (.lit 1)) (.var .nF)) (.var .d2)⟩,
  -- (node - nx) * nF + d2
   ⟨[963, 998, 1103, 1138, 1248, 1285, 1359, 1396, 1470, 1507, 1544, 1581, 1619, 1658, 1736, 1775, 1814, 1854], .add (.mul (.sub (.var .node) (.var .nx)) (.var .nF)) (.var .d2)⟩,
  -- (node + (nx * ny) - nx - 1) * nF + d2
   ⟨[971, 1256, 1367, 1515, 1627, 1744, 1822, 1862], .add (.mul (.sub (.sub (.add (.var .node) (.mul (.var .nx) (.var .ny))) (.var .nx)) (.lit 1)) (.var .nF)) (.var .d2)⟩,
  -- (node + (nx * ny) - nx) * nF + d2
   ⟨[972, 1007, 1257, 1294, 1368, 1479, 1516, 1628, 1745, 1784, 1823, 1863], .add (.mul (.sub (.add (.var .node) (.mul (.var .nx) (.var .ny))) (.var .nx)) (.var .nF)) (.var .d2)⟩,
  -- ((0)*nx*ny + (ny - 1)*nx + (0))
   ⟨[984], .add (.add (.mul (.mul (.lit 0) (.var .nx)) (.var .ny)) (.mul (.sub (.var .ny) (.lit 1)) (.var .nx))) (.lit 0)⟩,
  -- (node - nx + 1) * nF + d2
   ⟨[999, 1139, 1286, 1360, 1397, 1471, 1582, 1620, 1659, 1737, 1776, 1855], .add (.mul (.add (.sub (.var .node) (.var .nx)) (.lit 1)) (.var .nF)) (.var .d2)⟩,
  -- (node + (nx * ny) - nx + 1) * nF + d2
   ⟨[1008, 1295, 1369, 1480, 1629, 1746, 1785, 1864], .add (.mul (.add (.sub (.add (.var .node) (.mul (.var .nx) (.var .ny))) (.var .nx)) (.lit 1)) (.var .nF)) (.var .d2)⟩,
  -- ((nz - 1)*nx*ny + (0)*nx + (0))
   ⟨[1019], .add (.add (.mul (.mul (.sub (.var .nz) (.lit 1)) (.var .nx)) (.var .ny)) (.mul (.lit 0) (.var .nx))) (.lit 0)⟩,
  -- (node - (nx * ny)) * nF + d2
   ⟨[1027, 1062, 1097, 1132, 1168, 1205, 1242, 1279, 1390, 1427, 1538, 1575, 1652, 1691, 1730, 1769, 1808, 1848], .add (.mul (.sub (.var .node) (.mul (.var .nx) (.var .ny))) (.var .nF)) (.var .d2)⟩,
  -- (node - (nx * ny) + 1) * nF + d2
   ⟨[1028, 1133, 1169, 1280, 1391, 1428, 1576, 1653, 1692, 1731, 1770, 1849], .add (.mul (.add (.sub (.var .node) (.mul (.var .nx) (.var .ny))) (.lit 1)) (.var .nF)) (.var .d2)⟩,
  -- (node - (nx * ny) + nx) * nF + d2
   ⟨[1030, 1065, 1171, 1208, 1430, 1541, 1578, 1655, 1694, 1772, 1811, 1851], .add (.mul (.add (.sub (.var .node) (.mul (.var .nx) (.var .ny))) (.var .nx)) (.var .nF)) (.var .d2)⟩,
  -- (node - (nx * ny) + nx + 1) * nF + d2
   ⟨[1031, 1172, 1431, 1579, 1656, 1695, 1773, 1852], .add (.mul (.add (.add (.sub (.var .node) (.mul (.var .nx) (.var .ny))) (.var .nx)) (.lit 1)) (.var .nF)) (.var .d2)⟩,
  -- ((nz - 1)*nx*ny + (0)*nx + (nx - 1))
   ⟨[1054], .add (.add (.mul (.mul (.sub (.var .nz) (.lit 1)) (.var .nx)) (.var .ny)) (.mul (.lit 0) (.var .nx))) (.sub (.var .nx) (.lit 1))⟩,
  -- (node - (nx * ny) - 1) * nF + d2
   ⟨[1061, 1096, 1204, 1241, 1389, 1426, 1537, 1651, 1690, 1729, 1807, 1847], .add (.mul (.sub (.sub (.var .node) (.mul (.var .nx) (.var .ny))) (.lit 1)) (.var .nF)) (.var .d2)⟩,
  -- (node - (nx * ny) + nx - 1) * nF + d2
   ⟨[1064, 1207, 1429, 1540, 1654, 1693, 1810, 1850], .add (.mul (.sub (.add (.sub (.var .node) (.mul (.var .nx) (.var .ny))) (.var .nx)) (.lit 1)) (.var .nF)) (.var .d2)⟩,
  -- ((nz - 1)*nx*ny + (ny - 1)*nx + (nx - 1))
   ⟨[1089], .add (.add (.mul (.mul (.sub (.var .nz) (.lit 1)) (.var .nx)) (.var .ny)) (.mul (.sub (.var .ny) (.lit 1)) (.var .nx))) (.sub (.var .nx) (.lit 1))⟩,
  -- (node - (nx * ny) - nx - 1) * nF + d2
   ⟨[1093, 1238, 1386, 1534, 1648, 1726, 1804, 1844], .add (.mul (.sub (.sub (.sub (.var .node) (.mul (.var .nx) (.var .ny))) (.var .nx)) (.lit 1)) (.var .nF)) (.var .d2)⟩,
  -- (node - (nx * ny) - nx) * nF + d2
   ⟨[1094, 1129, 1239, 1276, 1387, 1535, 1572, 1649, 1727, 1766, 1805, 1845], .add (.mul (.sub (.sub (.var .node) (.mul (.var .nx) (.var .ny))) (.var .nx)) (.var .nF)) (.var .d2)⟩,
  -- ((nz - 1)*nx*ny + (ny - 1)*nx + (0))
   ⟨[1124], .add (.add (.mul (.mul (.sub (.var .nz) (.lit 1)) (.var .nx)) (.var .ny)) (.mul (.sub (.var .ny) (.lit 1)) (.var .nx))) (.lit 0)⟩,
  -- (node - (nx * ny) - nx + 1) * nF + d2
   ⟨[1130, 1277, 1388, 1573, 1650, 1728, 1767, 1846], .add (.mul (.add (.sub (.sub (.var .node) (.mul (.var .nx) (.var .ny))) (.var .nx)) (.lit 1)) (.var .nF)) (.var .d2)⟩,
  -- ((k)*nx*ny + (0)*nx + (0))
   ⟨[1160], .add (.add (.mul (.mul (.var .k) (.var .nx)) (.var .ny)) (.mul (.lit 0) (.var .nx))) (.lit 0)⟩,
  -- ((k)*nx*ny + (0)*nx + (nx - 1))
   ⟨[1197], .add (.add (.mul (.mul (.var .k) (.var .nx)) (.var .ny)) (.mul (.lit 0) (.var .nx))) (.sub (.var .nx) (.lit 1))⟩,
  -- ((k)*nx*ny + (ny - 1)*nx + (nx - 1))
   ⟨[1234], .add (.add (.mul (.mul (.var .k) (.var .nx)) (.var .ny)) (.mul (.sub (.var .ny) (.lit 1)) (.var .nx))) (.sub (.var .nx) (.lit 1))⟩,
  -- ((k)*nx*ny + (ny - 1)*nx + (0))
   ⟨[1271], .add (.add (.mul (.mul (.var .k) (.var .nx)) (.var .ny)) (.mul (.sub (.var .ny) (.lit 1)) (.var .nx))) (.lit 0)⟩,
  -- ((0)*nx*ny + (0)*nx + (i))
   ⟨[1308], .add (.add (.mul (.mul (.lit 0) (.var .nx)) (.var .ny)) (.mul (.lit 0) (.var .nx))) (.var .i)⟩,
  -- ((0)*nx*ny + (ny - 1)*nx + (i))
   ⟨[1345], .add (.add (.mul (.mul (.lit 0) (.var .nx)) (.var .ny)) (.mul (.sub (.var .ny) (.lit 1)) (.var .nx))) (.var .i)⟩,
  -- ((nz - 1)*nx*ny + (ny - 1)*nx + (i))
   ⟨[1382], .add (.add (.mul (.mul (.sub (.var .nz) (.lit 1)) (.var .nx)) (.var .ny)) (.mul (.sub (.var .ny) (.lit 1)) (.var .nx))) (.var .i)⟩,
  -- ((nz - 1)*nx*ny + (0)*nx + (i))
   ⟨[1419], .add (.add (.mul (.mul (.sub (.var .nz) (.lit 1)) (.var .nx)) (.var .ny)) (.mul (.lit 0) (.var .nx))) (.var .i)⟩,
  -- ((0)*nx*ny + (j)*nx + (0))
   ⟨[1456], .add (.add (.mul (.mul (.lit 0) (.var .nx)) (.var .ny)) (.mul (.var .j) (.var .nx))) (.lit 0)⟩,
  -- ((0)*nx*ny + (j)*nx + (nx - 1))
   ⟨[1493], .add (.add (.mul (.mul (.lit 0) (.var .nx)) (.var .ny)) (.mul (.var .j) (.var .nx))) (.sub (.var .nx) (.lit 1))⟩,
  -- ((nz - 1)*nx*ny + (j)*nx + (nx - 1))
   ⟨[1530], .add (.add (.mul (.mul (.sub (.var .nz) (.lit 1)) (.var .nx)) (.var .ny)) (.mul (.var .j) (.var .nx))) (.sub (.var .nx) (.lit 1))⟩,
  -- ((nz - 1)*nx*ny + (j)*nx + (0))
   ⟨[1567], .add (.add (.mul (.mul (.sub (.var .nz) (.lit 1)) (.var .nx)) (.var .ny)) (.mul (.var .j) (.var .nx))) (.lit 0)⟩,
  -- ((k)*nx*ny + (j)*nx + (i))
   ⟨[1840], .add (.add (.mul (.mul (.var .k) (.var .nx)) (.var .ny)) (.mul (.var .j) (.var .nx))) (.var .i)⟩]

/-- The node numbers of ell_add_struct2D: /repo/src/ell.cpp:342-345. -/
def nodes2D : List Occ :=
  -- ey * nx + ex
  [⟨[342], .add (.mul (.var .ey) (.var .nx)) (.var .ex)⟩,
  -- ey * nx + ex + 1
   ⟨[343], .add (.add (.mul (.var .ey) (.var .nx)) (.var .ex)) (.lit 1)⟩,
  -- (ey + 1) * nx + ex + 1
   ⟨[344], .add (.add (.mul (.add (.var .ey) (.lit 1)) (.var .nx)) (.var .ex)) (.lit 1)⟩,
  -- (ey + 1) * nx + ex
   ⟨[345], .add (.mul (.add (.var .ey) (.lit 1)) (.var .nx)) (.var .ex)⟩]

/-- The node numbers of ell_add_struct3D, ell_set_bc_3D and ell_init_3D: /repo/src/ell.cpp:378-387, 546-1876. -/
def nodes3D : List Occ :=
  -- ez * (nx * ny) + ey * nx + ex
  [⟨[378], .add (.add (.mul (.var .ez) (.mul (.var .nx) (.var .ny))) (.mul (.var .ey) (.var .nx))) (.var .ex)⟩,
  -- ez * (nx * ny) + ey * nx + ex + 1
   ⟨[379], .add (.add (.add (.mul (.var .ez) (.mul (.var .nx) (.var .ny))) (.mul (.var .ey) (.var .nx))) (.var .ex)) (.lit 1)⟩,
  -- ez * (nx * ny) + (ey + 1) * nx + ex + 1
   ⟨[380], .add (.add (.add (.mul (.var .ez) (.mul (.var .nx) (.var .ny))) (.mul (.add (.var .ey) (.lit 1)) (.var .nx))) (.var .ex)) (.lit 1)⟩,
  -- ez * (nx * ny) + (ey + 1) * nx + ex
   ⟨[381], .add (.add (.mul (.var .ez) (.mul (.var .nx) (.var .ny))) (.mul (.add (.var .ey) (.lit 1)) (.var .nx))) (.var .ex)⟩,
  -- (ez * (nx * ny) + ey * nx + ex) + nx * ny
   ⟨[384], .add (.add (.add (.mul (.var .ez) (.mul (.var .nx) (.var .ny))) (.mul (.var .ey) (.var .nx))) (.var .ex)) (.mul (.var .nx) (.var .ny))⟩,
  -- (ez * (nx * ny) + ey * nx + ex + 1) + nx * ny
   ⟨[385], .add (.add (.add (.add (.mul (.var .ez) (.mul (.var .nx) (.var .ny))) (.mul (.var .ey) (.var .nx))) (.var .ex)) (.lit 1)) (.mul (.var .nx) (.var .ny))⟩,
  -- (ez * (nx * ny) + (ey + 1) * nx + ex + 1) + nx * ny
   ⟨[386], .add (.add (.add (.add (.mul (.var .ez) (.mul (.var .nx) (.var .ny))) (.mul (.add (.var .ey) (.lit 1)) (.var .nx))) (.var .ex)) (.lit 1)) (.mul (.var .nx) (.var .ny))⟩,
  -- (ez * (nx * ny) + (ey + 1) * nx + ex) + nx * ny
   ⟨[387], .add (.add (.add (.mul (.var .ez) (.mul (.var .nx) (.var .ny))) (.mul (.add (.var .ey) (.lit 1)) (.var .nx))) (.var .ex)) (.mul (.var .nx) (.var .ny))⟩,
  -- ((0)*nx*ny + (j)*nx + (i))
   ⟨[548, 1605], .add (.add (.mul (.mul (.lit 0) (.var .nx)) (.var .ny)) (.mul (.var .j) (.var .nx))) (.var .i)⟩,
  -- ((nz - 1)*nx*ny + (j)*nx + (i))
   ⟨[561, 1644], .add (.add (.mul (.mul (.sub (.var .nz) (.lit 1)) (.var .nx)) (.var .ny)) (.mul (.var .j) (.var .nx))) (.var .i)⟩,
  -- ((k)*nx*ny + (0)*nx + (i))
   ⟨[574, 1683], .add (.add (.mul (.mul (.var .k) (.var .nx)) (.var .ny)) (.mul (.lit 0) (.var .nx))) (.var .i)⟩,
  -- ((k)*nx*ny + (ny - 1)*nx + (i))
   ⟨[587, 1722], .add (.add (.mul (.mul (.var .k) (.var .nx)) (.var .ny)) (.mul (.sub (.var .ny) (.lit 1)) (.var .nx))) (.var .i)⟩,
  -- ((k)*nx*ny + (j)*nx + (0))
   ⟨[600, 1761], .add (.add (.mul (.mul (.var .k) (.var .nx)) (.var .ny)) (.mul (.var .j) (.var .nx))) (.lit 0)⟩,
  -- ((k)*nx*ny + (j)*nx + (nx - 1))
   ⟨[613, 1800], .add (.add (.mul (.mul (.var .k) (.var .nx)) (.var .ny)) (.mul (.var .j) (.var .nx))) (.sub (.var .nx) (.lit 1))⟩,
  -- ((1)*nx*ny + (j)*nx + (i))
   ⟨[627], .add (.add (.mul (.mul (.lit 1) (.var .nx)) (.var .ny)) (.mul (.var .j) (.var .nx))) (.var .i)⟩,
  -- ((nz - 2)*nx*ny + (j)*nx + (i))
   ⟨[640], .add (.add (.mul (.mul (.sub (.var .nz) (.lit 2)) (.var .nx)) (.var .ny)) (.mul (.var .j) (.var .nx))) (.var .i)⟩,
  -- ((k)*nx*ny + (1)*nx + (i))
   ⟨[654], .add (.add (.mul (.mul (.var .k) (.var .nx)) (.var .ny)) (.mul (.lit 1) (.var .nx))) (.var .i)⟩,
  -- ((k)*nx*ny + (ny - 2)*nx + (i))
   ⟨[668], .add (.add (.mul (.mul (.var .k) (.var .nx)) (.var .ny)) (.mul (.sub (.var .ny) (.lit 2)) (.var .nx))) (.var .i)⟩,
  -- ((k)*nx*ny + (j)*nx + (1))
   ⟨[682], .add (.add (.mul (.mul (.var .k) (.var .nx)) (.var .ny)) (.mul (.var .j) (.var .nx))) (.lit 1)⟩,
  -- ((k)*nx*ny + (j)*nx + (nx - 2))
   ⟨[696], .add (.add (.mul (.mul (.var .k) (.var .nx)) (.var .ny)) (.mul (.var .j) (.var .nx))) (.sub (.var .nx) (.lit 2))⟩,
  -- ((0)*nx*ny + (0)*nx + (0))
   ⟨[879], .add (.add (.mul (.mul (.lit 0) (.var .nx)) (.var .ny)) (.mul (.lit 0) (.var .nx))) (.lit 0)⟩,
  -- ((0)*nx*ny + (0)*nx + (nx - 1))
   ⟨[914], .add (.add (.mul (.mul (.lit 0) (.var .nx)) (.var .ny)) (.mul (.lit 0) (.var .nx))) (.sub (.var .nx) (.lit 1))⟩,
  -- ((0)*nx*ny + (ny - 1)*nx + (nx - 1))
   ⟨[949], .add (.add (.mul (.mul (.lit 0) (.var .nx)) (.var .ny)) (.mul (.sub (.var .ny) (.lit 1)) (.var .nx))) (.sub (.var .nx) (.lit 1))⟩,
  -- ((0)*nx*ny + (ny - 1)*nx + (0))
   ⟨[984], .add (.add (.mul (.mul (.lit 0) (.var .nx)) (.var .ny)) (.mul (.sub (.var .ny) (.lit 1)) (.var .nx))) (.lit 0)⟩,
  -- ((nz - 1)*nx*ny + (0)*nx + (0))
   ⟨[1019], .add (.add (.mul (.mul (.sub (.var .nz) (.lit 1)) (.var .nx)) (.var .ny)) (.mul (.lit 0) (.var .nx))) (.lit 0)⟩,
  -- ((nz - 1)*nx*ny + (0)*nx + (nx - 1))
   ⟨[1054], .add (.add (.mul (.mul (.sub (.var .nz) (.lit 1)) (.var .nx)) (.var .ny)) (.mul (.lit 0) (.var .nx))) (.sub (.var .nx) (.lit 1))⟩,
  -- ((nz - 1)*nx*ny + (ny - 1)*nx + (nx - 1))
   ⟨[1089], .add (.add (.mul (.mul (.sub (.var .nz) (.lit 1)) (.var .nx)) (.var .ny)) (.mul (.sub (.var .ny) (.lit 1)) (.var .nx))) (.sub (.var .nx) (.lit 1))⟩,
  -- ((nz - 1)*nx*ny + (ny - 1)*nx + (0))
   ⟨[1124], .add (.add (.mul (.mul (.sub (.var .nz) (.lit 1)) (.var .nx)) (.var .ny)) (.mul (.sub (.var .ny) (.lit 1)) (.var .nx))) (.lit 0)⟩,
  -- ((k)*nx*ny + (0)*nx + (0))
   ⟨[1160], .add (.add (.mul (.mul (.var .k) (.var .nx)) (.var .ny)) (.mul (.lit 0) (.var .nx))) (.lit 0)⟩,
  -- ((k)*nx*ny + (0)*nx + (nx - 1))
   ⟨[1197], .add (.add (.mul (.mul (.var .k) (.var .nx)) (.var .ny)) (.mul (.lit 0) (.var .nx))) (.sub (.var .nx) (.lit 1))⟩,
  -- ((k)*nx*ny + (ny - 1)*nx + (nx - 1))
   ⟨[1234], .add (.add (.mul (.mul (.var .k) (.var .nx)) (.var .ny)) (.mul (.sub (.var .ny) (.lit 1)) (.var .nx))) (.sub (.var .nx) (.lit 1))⟩,
  -- ((k)*nx*ny + (ny - 1)*nx + (0))
   ⟨[1271], .add (.add (.mul (.mul (.var .k) (.var .nx)) (.var .ny)) (.mul (.sub (.var .ny) (.lit 1)) (.var .nx))) (.lit 0)⟩,
  -- ((0)*nx*ny + (0)*nx + (i))
   ⟨[1308], .add (.add (.mul (.mul (.lit 0) (.var .nx)) (.var .ny)) (.mul (.lit 0) (.var .nx))) (.var .i)⟩,
  -- ((0)*nx*ny + (ny - 1)*nx + (i))
   ⟨[1345], .add (.add (.mul (.mul (.lit 0) (.var .nx)) (.var .ny)) (.mul (.sub (.var .ny) (.lit 1)) (.var .nx))) (.var .i)⟩,
  -- ((nz - 1)*nx*ny + (ny - 1)*nx + (i))
   ⟨[1382], .add (.add (.mul (.mul (.sub (.var .nz) (.lit 1)) (.var .nx)) (.var .ny)) (.mul (.sub (.var .ny) (.lit 1)) (.var .nx))) (.var .i)⟩,
  -- ((nz - 1)*nx*ny + (0)*nx + (i))
   ⟨[1419], .add (.add (.mul (.mul (.sub (.var .nz) (.lit 1)) (.var .nx)) (.var .ny)) (.mul (.lit 0) (.var .nx))) (.var .i)⟩,
  -- ((0)*nx*ny + (j)*nx + (0))
   ⟨[1456], .add (.add (.mul (.mul (.lit 0) (.var .nx)) (.var .ny)) (.mul (.var .j) (.var .nx))) (.lit 0)⟩,
  -- ((0)*nx*ny + (j)*nx + (nx - 1))
   ⟨[1493], .add (.add (.mul (.mul (.lit 0) (.var .nx)) (.var .ny)) (.mul (.var .j) (.var .nx))) (.sub (.var .nx) (.lit 1))⟩,
  -- ((nz - 1)*nx*ny + (j)*nx + (nx - 1))
   ⟨[1530], .add (.add (.mul (.mul (.sub (.var .nz) (.lit 1)) (.var .nx)) (.var .ny)) (.mul (.var .j) (.var .nx))) (.sub (.var .nx) (.lit 1))⟩,
  -- ((nz - 1)*nx*ny + (j)*nx + (0))
   ⟨[1567], .add (.add (.mul (.mul (.sub (.var .nz) (.lit 1)) (.var .nx)) (.var .ny)) (.mul (.var .j) (.var .nx))) (.lit 0)⟩,
  -- ((k)*nx*ny + (j)*nx + (i))
   ⟨[1840], .add (.add (.mul (.mul (.var .k) (.var .nx)) (.var .ny)) (.mul (.var .j) (.var .nx))) (.var .i)⟩]

end Verif
