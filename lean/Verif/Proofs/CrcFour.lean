import Verif.Proofs.CrcFourParts1
import Verif.Proofs.CrcFourParts2
/-
Four-bit errors and CRC32. A four-bit error escapes exactly when the states of the shift register after as many steps as the first three
flipped bits are away from the last add up to the start; the computations of `CrcFourParts1` and `CrcFourParts2` exclude that for up to
2999 steps.
-/
namespace FinProto

namespace CrcFour

/-- The parts cover all distances. -/
theorem covered (d : Nat) (h1 : 1 ≤ d) (h2 : d < 2999) : ∃ e c, Part e c ∧ e ≤ d ∧ d < e + c := by
  rcases Nat.lt_or_ge d 10 with h | h1
  · exact ⟨1, 9, part0, h1, h⟩
  rcases Nat.lt_or_ge d 19 with h | h1
  · exact ⟨10, 9, part1, h1, h⟩
  rcases Nat.lt_or_ge d 29 with h | h1
  · exact ⟨19, 10, part2, h1, h⟩
  rcases Nat.lt_or_ge d 39 with h | h1
  · exact ⟨29, 10, part3, h1, h⟩
  rcases Nat.lt_or_ge d 49 with h | h1
  · exact ⟨39, 10, part4, h1, h⟩
  rcases Nat.lt_or_ge d 59 with h | h1
  · exact ⟨49, 10, part5, h1, h⟩
  rcases Nat.lt_or_ge d 69 with h | h1
  · exact ⟨59, 10, part6, h1, h⟩
  rcases Nat.lt_or_ge d 79 with h | h1
  · exact ⟨69, 10, part7, h1, h⟩
  rcases Nat.lt_or_ge d 89 with h | h1
  · exact ⟨79, 10, part8, h1, h⟩
  rcases Nat.lt_or_ge d 99 with h | h1
  · exact ⟨89, 10, part9, h1, h⟩
  rcases Nat.lt_or_ge d 109 with h | h1
  · exact ⟨99, 10, part10, h1, h⟩
  rcases Nat.lt_or_ge d 119 with h | h1
  · exact ⟨109, 10, part11, h1, h⟩
  rcases Nat.lt_or_ge d 129 with h | h1
  · exact ⟨119, 10, part12, h1, h⟩
  rcases Nat.lt_or_ge d 139 with h | h1
  · exact ⟨129, 10, part13, h1, h⟩
  rcases Nat.lt_or_ge d 149 with h | h1
  · exact ⟨139, 10, part14, h1, h⟩
  rcases Nat.lt_or_ge d 159 with h | h1
  · exact ⟨149, 10, part15, h1, h⟩
  rcases Nat.lt_or_ge d 169 with h | h1
  · exact ⟨159, 10, part16, h1, h⟩
  rcases Nat.lt_or_ge d 179 with h | h1
  · exact ⟨169, 10, part17, h1, h⟩
  rcases Nat.lt_or_ge d 189 with h | h1
  · exact ⟨179, 10, part18, h1, h⟩
  rcases Nat.lt_or_ge d 199 with h | h1
  · exact ⟨189, 10, part19, h1, h⟩
  rcases Nat.lt_or_ge d 209 with h | h1
  · exact ⟨199, 10, part20, h1, h⟩
  rcases Nat.lt_or_ge d 219 with h | h1
  · exact ⟨209, 10, part21, h1, h⟩
  rcases Nat.lt_or_ge d 229 with h | h1
  · exact ⟨219, 10, part22, h1, h⟩
  rcases Nat.lt_or_ge d 239 with h | h1
  · exact ⟨229, 10, part23, h1, h⟩
  rcases Nat.lt_or_ge d 249 with h | h1
  · exact ⟨239, 10, part24, h1, h⟩
  rcases Nat.lt_or_ge d 259 with h | h1
  · exact ⟨249, 10, part25, h1, h⟩
  rcases Nat.lt_or_ge d 269 with h | h1
  · exact ⟨259, 10, part26, h1, h⟩
  rcases Nat.lt_or_ge d 279 with h | h1
  · exact ⟨269, 10, part27, h1, h⟩
  rcases Nat.lt_or_ge d 289 with h | h1
  · exact ⟨279, 10, part28, h1, h⟩
  rcases Nat.lt_or_ge d 300 with h | h1
  · exact ⟨289, 11, part29, h1, h⟩
  rcases Nat.lt_or_ge d 311 with h | h1
  · exact ⟨300, 11, part30, h1, h⟩
  rcases Nat.lt_or_ge d 322 with h | h1
  · exact ⟨311, 11, part31, h1, h⟩
  rcases Nat.lt_or_ge d 333 with h | h1
  · exact ⟨322, 11, part32, h1, h⟩
  rcases Nat.lt_or_ge d 344 with h | h1
  · exact ⟨333, 11, part33, h1, h⟩
  rcases Nat.lt_or_ge d 355 with h | h1
  · exact ⟨344, 11, part34, h1, h⟩
  rcases Nat.lt_or_ge d 366 with h | h1
  · exact ⟨355, 11, part35, h1, h⟩
  rcases Nat.lt_or_ge d 377 with h | h1
  · exact ⟨366, 11, part36, h1, h⟩
  rcases Nat.lt_or_ge d 388 with h | h1
  · exact ⟨377, 11, part37, h1, h⟩
  rcases Nat.lt_or_ge d 399 with h | h1
  · exact ⟨388, 11, part38, h1, h⟩
  rcases Nat.lt_or_ge d 410 with h | h1
  · exact ⟨399, 11, part39, h1, h⟩
  rcases Nat.lt_or_ge d 421 with h | h1
  · exact ⟨410, 11, part40, h1, h⟩
  rcases Nat.lt_or_ge d 432 with h | h1
  · exact ⟨421, 11, part41, h1, h⟩
  rcases Nat.lt_or_ge d 443 with h | h1
  · exact ⟨432, 11, part42, h1, h⟩
  rcases Nat.lt_or_ge d 454 with h | h1
  · exact ⟨443, 11, part43, h1, h⟩
  rcases Nat.lt_or_ge d 465 with h | h1
  · exact ⟨454, 11, part44, h1, h⟩
  rcases Nat.lt_or_ge d 476 with h | h1
  · exact ⟨465, 11, part45, h1, h⟩
  rcases Nat.lt_or_ge d 487 with h | h1
  · exact ⟨476, 11, part46, h1, h⟩
  rcases Nat.lt_or_ge d 498 with h | h1
  · exact ⟨487, 11, part47, h1, h⟩
  rcases Nat.lt_or_ge d 509 with h | h1
  · exact ⟨498, 11, part48, h1, h⟩
  rcases Nat.lt_or_ge d 520 with h | h1
  · exact ⟨509, 11, part49, h1, h⟩
  rcases Nat.lt_or_ge d 532 with h | h1
  · exact ⟨520, 12, part50, h1, h⟩
  rcases Nat.lt_or_ge d 544 with h | h1
  · exact ⟨532, 12, part51, h1, h⟩
  rcases Nat.lt_or_ge d 556 with h | h1
  · exact ⟨544, 12, part52, h1, h⟩
  rcases Nat.lt_or_ge d 568 with h | h1
  · exact ⟨556, 12, part53, h1, h⟩
  rcases Nat.lt_or_ge d 580 with h | h1
  · exact ⟨568, 12, part54, h1, h⟩
  rcases Nat.lt_or_ge d 592 with h | h1
  · exact ⟨580, 12, part55, h1, h⟩
  rcases Nat.lt_or_ge d 604 with h | h1
  · exact ⟨592, 12, part56, h1, h⟩
  rcases Nat.lt_or_ge d 616 with h | h1
  · exact ⟨604, 12, part57, h1, h⟩
  rcases Nat.lt_or_ge d 628 with h | h1
  · exact ⟨616, 12, part58, h1, h⟩
  rcases Nat.lt_or_ge d 640 with h | h1
  · exact ⟨628, 12, part59, h1, h⟩
  rcases Nat.lt_or_ge d 652 with h | h1
  · exact ⟨640, 12, part60, h1, h⟩
  rcases Nat.lt_or_ge d 664 with h | h1
  · exact ⟨652, 12, part61, h1, h⟩
  rcases Nat.lt_or_ge d 676 with h | h1
  · exact ⟨664, 12, part62, h1, h⟩
  rcases Nat.lt_or_ge d 688 with h | h1
  · exact ⟨676, 12, part63, h1, h⟩
  rcases Nat.lt_or_ge d 700 with h | h1
  · exact ⟨688, 12, part64, h1, h⟩
  rcases Nat.lt_or_ge d 712 with h | h1
  · exact ⟨700, 12, part65, h1, h⟩
  rcases Nat.lt_or_ge d 725 with h | h1
  · exact ⟨712, 13, part66, h1, h⟩
  rcases Nat.lt_or_ge d 738 with h | h1
  · exact ⟨725, 13, part67, h1, h⟩
  rcases Nat.lt_or_ge d 751 with h | h1
  · exact ⟨738, 13, part68, h1, h⟩
  rcases Nat.lt_or_ge d 764 with h | h1
  · exact ⟨751, 13, part69, h1, h⟩
  rcases Nat.lt_or_ge d 777 with h | h1
  · exact ⟨764, 13, part70, h1, h⟩
  rcases Nat.lt_or_ge d 790 with h | h1
  · exact ⟨777, 13, part71, h1, h⟩
  rcases Nat.lt_or_ge d 803 with h | h1
  · exact ⟨790, 13, part72, h1, h⟩
  rcases Nat.lt_or_ge d 816 with h | h1
  · exact ⟨803, 13, part73, h1, h⟩
  rcases Nat.lt_or_ge d 829 with h | h1
  · exact ⟨816, 13, part74, h1, h⟩
  rcases Nat.lt_or_ge d 842 with h | h1
  · exact ⟨829, 13, part75, h1, h⟩
  rcases Nat.lt_or_ge d 855 with h | h1
  · exact ⟨842, 13, part76, h1, h⟩
  rcases Nat.lt_or_ge d 868 with h | h1
  · exact ⟨855, 13, part77, h1, h⟩
  rcases Nat.lt_or_ge d 882 with h | h1
  · exact ⟨868, 14, part78, h1, h⟩
  rcases Nat.lt_or_ge d 896 with h | h1
  · exact ⟨882, 14, part79, h1, h⟩
  rcases Nat.lt_or_ge d 910 with h | h1
  · exact ⟨896, 14, part80, h1, h⟩
  rcases Nat.lt_or_ge d 924 with h | h1
  · exact ⟨910, 14, part81, h1, h⟩
  rcases Nat.lt_or_ge d 938 with h | h1
  · exact ⟨924, 14, part82, h1, h⟩
  rcases Nat.lt_or_ge d 952 with h | h1
  · exact ⟨938, 14, part83, h1, h⟩
  rcases Nat.lt_or_ge d 966 with h | h1
  · exact ⟨952, 14, part84, h1, h⟩
  rcases Nat.lt_or_ge d 980 with h | h1
  · exact ⟨966, 14, part85, h1, h⟩
  rcases Nat.lt_or_ge d 994 with h | h1
  · exact ⟨980, 14, part86, h1, h⟩
  rcases Nat.lt_or_ge d 1008 with h | h1
  · exact ⟨994, 14, part87, h1, h⟩
  rcases Nat.lt_or_ge d 1023 with h | h1
  · exact ⟨1008, 15, part88, h1, h⟩
  rcases Nat.lt_or_ge d 1038 with h | h1
  · exact ⟨1023, 15, part89, h1, h⟩
  rcases Nat.lt_or_ge d 1053 with h | h1
  · exact ⟨1038, 15, part90, h1, h⟩
  rcases Nat.lt_or_ge d 1068 with h | h1
  · exact ⟨1053, 15, part91, h1, h⟩
  rcases Nat.lt_or_ge d 1083 with h | h1
  · exact ⟨1068, 15, part92, h1, h⟩
  rcases Nat.lt_or_ge d 1098 with h | h1
  · exact ⟨1083, 15, part93, h1, h⟩
  rcases Nat.lt_or_ge d 1113 with h | h1
  · exact ⟨1098, 15, part94, h1, h⟩
  rcases Nat.lt_or_ge d 1128 with h | h1
  · exact ⟨1113, 15, part95, h1, h⟩
  rcases Nat.lt_or_ge d 1143 with h | h1
  · exact ⟨1128, 15, part96, h1, h⟩
  rcases Nat.lt_or_ge d 1159 with h | h1
  · exact ⟨1143, 16, part97, h1, h⟩
  rcases Nat.lt_or_ge d 1175 with h | h1
  · exact ⟨1159, 16, part98, h1, h⟩
  rcases Nat.lt_or_ge d 1191 with h | h1
  · exact ⟨1175, 16, part99, h1, h⟩
  rcases Nat.lt_or_ge d 1207 with h | h1
  · exact ⟨1191, 16, part100, h1, h⟩
  rcases Nat.lt_or_ge d 1223 with h | h1
  · exact ⟨1207, 16, part101, h1, h⟩
  rcases Nat.lt_or_ge d 1239 with h | h1
  · exact ⟨1223, 16, part102, h1, h⟩
  rcases Nat.lt_or_ge d 1255 with h | h1
  · exact ⟨1239, 16, part103, h1, h⟩
  rcases Nat.lt_or_ge d 1272 with h | h1
  · exact ⟨1255, 17, part104, h1, h⟩
  rcases Nat.lt_or_ge d 1289 with h | h1
  · exact ⟨1272, 17, part105, h1, h⟩
  rcases Nat.lt_or_ge d 1306 with h | h1
  · exact ⟨1289, 17, part106, h1, h⟩
  rcases Nat.lt_or_ge d 1323 with h | h1
  · exact ⟨1306, 17, part107, h1, h⟩
  rcases Nat.lt_or_ge d 1340 with h | h1
  · exact ⟨1323, 17, part108, h1, h⟩
  rcases Nat.lt_or_ge d 1358 with h | h1
  · exact ⟨1340, 18, part109, h1, h⟩
  rcases Nat.lt_or_ge d 1376 with h | h1
  · exact ⟨1358, 18, part110, h1, h⟩
  rcases Nat.lt_or_ge d 1394 with h | h1
  · exact ⟨1376, 18, part111, h1, h⟩
  rcases Nat.lt_or_ge d 1412 with h | h1
  · exact ⟨1394, 18, part112, h1, h⟩
  rcases Nat.lt_or_ge d 1430 with h | h1
  · exact ⟨1412, 18, part113, h1, h⟩
  rcases Nat.lt_or_ge d 1449 with h | h1
  · exact ⟨1430, 19, part114, h1, h⟩
  rcases Nat.lt_or_ge d 1468 with h | h1
  · exact ⟨1449, 19, part115, h1, h⟩
  rcases Nat.lt_or_ge d 1487 with h | h1
  · exact ⟨1468, 19, part116, h1, h⟩
  rcases Nat.lt_or_ge d 1506 with h | h1
  · exact ⟨1487, 19, part117, h1, h⟩
  rcases Nat.lt_or_ge d 1526 with h | h1
  · exact ⟨1506, 20, part118, h1, h⟩
  rcases Nat.lt_or_ge d 1546 with h | h1
  · exact ⟨1526, 20, part119, h1, h⟩
  rcases Nat.lt_or_ge d 1566 with h | h1
  · exact ⟨1546, 20, part120, h1, h⟩
  rcases Nat.lt_or_ge d 1586 with h | h1
  · exact ⟨1566, 20, part121, h1, h⟩
  rcases Nat.lt_or_ge d 1607 with h | h1
  · exact ⟨1586, 21, part122, h1, h⟩
  rcases Nat.lt_or_ge d 1628 with h | h1
  · exact ⟨1607, 21, part123, h1, h⟩
  rcases Nat.lt_or_ge d 1649 with h | h1
  · exact ⟨1628, 21, part124, h1, h⟩
  rcases Nat.lt_or_ge d 1671 with h | h1
  · exact ⟨1649, 22, part125, h1, h⟩
  rcases Nat.lt_or_ge d 1693 with h | h1
  · exact ⟨1671, 22, part126, h1, h⟩
  rcases Nat.lt_or_ge d 1715 with h | h1
  · exact ⟨1693, 22, part127, h1, h⟩
  rcases Nat.lt_or_ge d 1738 with h | h1
  · exact ⟨1715, 23, part128, h1, h⟩
  rcases Nat.lt_or_ge d 1761 with h | h1
  · exact ⟨1738, 23, part129, h1, h⟩
  rcases Nat.lt_or_ge d 1785 with h | h1
  · exact ⟨1761, 24, part130, h1, h⟩
  rcases Nat.lt_or_ge d 1809 with h | h1
  · exact ⟨1785, 24, part131, h1, h⟩
  rcases Nat.lt_or_ge d 1834 with h | h1
  · exact ⟨1809, 25, part132, h1, h⟩
  rcases Nat.lt_or_ge d 1859 with h | h1
  · exact ⟨1834, 25, part133, h1, h⟩
  rcases Nat.lt_or_ge d 1885 with h | h1
  · exact ⟨1859, 26, part134, h1, h⟩
  rcases Nat.lt_or_ge d 1912 with h | h1
  · exact ⟨1885, 27, part135, h1, h⟩
  rcases Nat.lt_or_ge d 1939 with h | h1
  · exact ⟨1912, 27, part136, h1, h⟩
  rcases Nat.lt_or_ge d 1967 with h | h1
  · exact ⟨1939, 28, part137, h1, h⟩
  rcases Nat.lt_or_ge d 1996 with h | h1
  · exact ⟨1967, 29, part138, h1, h⟩
  rcases Nat.lt_or_ge d 2026 with h | h1
  · exact ⟨1996, 30, part139, h1, h⟩
  rcases Nat.lt_or_ge d 2057 with h | h1
  · exact ⟨2026, 31, part140, h1, h⟩
  rcases Nat.lt_or_ge d 2089 with h | h1
  · exact ⟨2057, 32, part141, h1, h⟩
  rcases Nat.lt_or_ge d 2122 with h | h1
  · exact ⟨2089, 33, part142, h1, h⟩
  rcases Nat.lt_or_ge d 2156 with h | h1
  · exact ⟨2122, 34, part143, h1, h⟩
  rcases Nat.lt_or_ge d 2192 with h | h1
  · exact ⟨2156, 36, part144, h1, h⟩
  rcases Nat.lt_or_ge d 2229 with h | h1
  · exact ⟨2192, 37, part145, h1, h⟩
  rcases Nat.lt_or_ge d 2268 with h | h1
  · exact ⟨2229, 39, part146, h1, h⟩
  rcases Nat.lt_or_ge d 2309 with h | h1
  · exact ⟨2268, 41, part147, h1, h⟩
  rcases Nat.lt_or_ge d 2353 with h | h1
  · exact ⟨2309, 44, part148, h1, h⟩
  rcases Nat.lt_or_ge d 2400 with h | h1
  · exact ⟨2353, 47, part149, h1, h⟩
  rcases Nat.lt_or_ge d 2451 with h | h1
  · exact ⟨2400, 51, part150, h1, h⟩
  rcases Nat.lt_or_ge d 2508 with h | h1
  · exact ⟨2451, 57, part151, h1, h⟩
  rcases Nat.lt_or_ge d 2572 with h | h1
  · exact ⟨2508, 64, part152, h1, h⟩
  rcases Nat.lt_or_ge d 2648 with h | h1
  · exact ⟨2572, 76, part153, h1, h⟩
  rcases Nat.lt_or_ge d 2746 with h | h1
  · exact ⟨2648, 98, part154, h1, h⟩
  rcases Nat.lt_or_ge d 2930 with h | h1
  · exact ⟨2746, 184, part155, h1, h⟩
  rcases Nat.lt_or_ge d 2999 with h | h1
  · exact ⟨2930, 69, part156, h1, h⟩
  omega

theorem states_apart (a b c : Nat) (ha : 1 ≤ a) (hab : a < b) (hbc : b < c) (hc : c < 3000) :
    gsteps 0xEDB88320#32 c (topBit 31) ^^^ gsteps 0xEDB88320#32 b (topBit 31) ^^^ gsteps 0xEDB88320#32 a (topBit 31) ≠ topBit 31 := by
  obtain ⟨e, n, hp, h1, h2⟩ := covered (c - b) (by omega) (by omega)
  have := hp.apart a b (c - b) ha (by omega) (by omega) h1 h2 (by omega)
  rw [show b + (c - b) = c by omega] at this
  intro h
  apply this
  revert h
  generalize gsteps 0xEDB88320#32 a (topBit 31) = x
  generalize gsteps 0xEDB88320#32 b (topBit 31) = y
  generalize gsteps 0xEDB88320#32 c (topBit 31) = z
  intro h
  rw [← h, BitVec.xor_comm x, BitVec.xor_assoc, BitVec.xor_self, BitVec.xor_zero, BitVec.xor_comm]

end CrcFour

theorem four_flips {w : Nat} (poly : BitVec (w + 1)) (hp : poly.msb = true) (i j k l n : Nat) :
    (List.replicate i false ++ true :: (List.replicate j false ++ true :: (List.replicate k false ++ true ::
        (List.replicate l false ++ true :: List.replicate n false)))).foldl (crcBit poly) 0#(w + 1) = 0#(w + 1)
      ↔ gsteps poly (j + k + l + 3) (topBit w) ^^^ gsteps poly (k + l + 2) (topBit w) ^^^ gsteps poly (l + 1) (topBit w) = topBit w := by
  rw [List.foldl_append, crcBits_zeros, gsteps_zero, List.foldl_cons, List.foldl_append, crcBits_zeros, List.foldl_cons, List.foldl_append,
    crcBits_zeros, List.foldl_cons, List.foldl_append, crcBits_zeros, List.foldl_cons, crcBits_zeros, crcBit_true_zero]
  have h1 : gsteps poly w (topBit w) = 1#(w + 1) := by
    rw [gsteps_top poly w (Nat.le_refl _), Nat.sub_self]
    apply BitVec.eq_of_getLsbD_eq
    intro k hk
    simp [BitVec.getLsbD_twoPow, BitVec.getLsbD_one]
    omega
  have hs : ∀ j x, gsteps poly j (gstep poly x) = gsteps poly (j + 1) x := by
    intro j x
    rw [gsteps_add]; rfl
  have h3 : (BitVec.ofBool true).setWidth (w + 1) = 1#(w + 1) := by
    apply BitVec.eq_of_toNat_eq
    simp
  rw [hs, crcBit_eq (by omega) poly (gsteps poly (j + 1) 1#(w + 1)) true, h3, hs, crcBit_eq (by omega), h3, gsteps_xor, ← gsteps_add, hs,
    crcBit_eq (by omega), h3, hs, gsteps_xor poly (l + 1), gsteps_xor poly (l + 1), ← gsteps_add, ← gsteps_add]
  rw [show l + 1 + (k + 1 + (j + 1)) = j + k + l + 3 by omega, show l + 1 + (k + 1) = k + l + 2 by omega, ← h1]
  rw [gsteps_comm poly (j + k + l + 3) w, gsteps_comm poly (k + l + 2) w, gsteps_comm poly (l + 1) w, ← gsteps_xor, ← gsteps_xor, ← gsteps_xor]
  constructor
  · intro h
    have h := gsteps_inj poly hp (n + 1) _ 0#(w + 1) (by rw [h, gsteps_zero])
    have h := gsteps_inj poly hp w _ 0#(w + 1) (by rw [h, gsteps_zero])
    rwa [BitVec.xor_eq_zero_iff] at h
  · intro h
    rw [h, BitVec.xor_self, gsteps_zero, gsteps_zero]

theorem crcRef_four_flips {w : Nat} (poly init xorOut : BitVec (w + 1)) (hp : poly.msb = true) (m1 m2 : List Byte)
    (hl : m1.length = m2.length) (i j k l : Nat) (hf : flips m1 m2 = [i, j, k, l]) :
    i < j ∧ j < k ∧ k < l ∧ l < 8 * m1.length ∧ (crcRef poly init xorOut m1 = crcRef poly init xorOut m2
      ↔ gsteps poly (l - i) (topBit w) ^^^ gsteps poly (l - j) (topBit w) ^^^ gsteps poly (l - k) (topBit w) = topBit w) := by
  have hs : (flips m1 m2).Pairwise (· < ·) := List.Pairwise.filter _ (List.pairwise_lt_range)
  have hlt : l < 8 * m1.length := by
    have : l ∈ flips m1 m2 := by rw [hf]; simp
    rw [flips, List.mem_filter, List.mem_range] at this
    exact this.1
  rw [hf] at hs
  have hij : i < j ∧ j < k ∧ k < l := by
    simp at hs
    omega
  refine ⟨hij.1, hij.2.1, hij.2.2, hlt, ?_⟩
  rw [crcRef_eq_iff _ _ _ _ _ hl]
  rw [flips_eq _ _ hl] at hf
  obtain ⟨e1, he1, ht1⟩ := onesAt_cons_form _ _ _ hf
  obtain ⟨e2, he2, ht2⟩ := onesAt_cons_form _ _ _ ht1
  obtain ⟨e3, he3, ht3⟩ := onesAt_cons_form _ _ _ ht2
  obtain ⟨e4, he4, ht4⟩ := onesAt_cons_form _ _ _ ht3
  rw [he1, he2, he3, he4, onesAt_nil e4 ht4, four_flips poly hp]
  rw [show j - (i + 1) + (k - (i + 1) - (j - (i + 1) + 1)) + (l - (i + 1) - (j - (i + 1) + 1) - (k - (i + 1) - (j - (i + 1) + 1) + 1)) + 3 = l - i by omega,
    show k - (i + 1) - (j - (i + 1) + 1) + (l - (i + 1) - (j - (i + 1) + 1) - (k - (i + 1) - (j - (i + 1) + 1) + 1)) + 2 = l - j by omega,
    show l - (i + 1) - (j - (i + 1) + 1) - (k - (i + 1) - (j - (i + 1) + 1) + 1) + 1 = l - k by omega]

/-- `onesAt`, in one pass. -/
def onesFrom : Nat → List Bool → List Nat
  | _, [] => []
  | k, b :: e => bif b then k :: onesFrom (k + 1) e else onesFrom (k + 1) e

theorem onesFrom_eq (k : Nat) (e : List Bool) : onesFrom k e = (onesAt e).map (· + k) := by
  induction e generalizing k with
  | nil => rfl
  | cons b e ih =>
    rw [onesFrom, onesAt_cons, ih, List.map_append, List.map_map]
    have : ((fun x => x + k) ∘ fun x => x + 1) = fun x => x + (k + 1) := by funext x; simp; omega
    rw [this]
    cases b <;> simp

/-- The first four-bit error CRC32 misses. -/
theorem missed_four : gsteps 0xEDB88320#32 3006 (topBit 31) ^^^ gsteps 0xEDB88320#32 2866 (topBit 31)
    ^^^ gsteps 0xEDB88320#32 2215 (topBit 31) = topBit 31 := by
  have key : ∀ bs : List Bool, gsteps 0xEDB88320#32 (bitsVal bs 0) (topBit 31) = fpow 0xEDB88320#32 bs (topBit 31) := by
    intro bs
    rw [← fpow_eq]
    rfl
  have h1 := key (natBits 3006 12)
  have h2 := key (natBits 2866 12)
  have h3 := key (natBits 2215 12)
  rw [show bitsVal (natBits 3006 12) 0 = 3006 by decide +kernel] at h1
  rw [show bitsVal (natBits 2866 12) 0 = 2866 by decide +kernel] at h2
  rw [show bitsVal (natBits 2215 12) 0 = 2215 by decide +kernel] at h3
  rw [h1, h2, h3]
  decide +kernel

end FinProto
