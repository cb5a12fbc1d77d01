import Verif.Proofs.CrcThree
/-
Four-bit errors and CRC32, part 1 of the computation: the sums of two of the first 3000 states of the shift register. Each theorem is one
computation of the kernel on about 32768 sums (`Packed.sumsDistinct`); together they cover all distances between the two states from
1 to 895.
-/
namespace FinProto.CrcFour

-- one after the other: several at the same time need too much memory
set_option Elab.async false

theorem part0 : Part 1 9 := by decide +kernel
theorem part1 : Part 10 9 := by decide +kernel
theorem part2 : Part 19 10 := by decide +kernel
theorem part3 : Part 29 10 := by decide +kernel
theorem part4 : Part 39 10 := by decide +kernel
theorem part5 : Part 49 10 := by decide +kernel
theorem part6 : Part 59 10 := by decide +kernel
theorem part7 : Part 69 10 := by decide +kernel
theorem part8 : Part 79 10 := by decide +kernel
theorem part9 : Part 89 10 := by decide +kernel
theorem part10 : Part 99 10 := by decide +kernel
theorem part11 : Part 109 10 := by decide +kernel
theorem part12 : Part 119 10 := by decide +kernel
theorem part13 : Part 129 10 := by decide +kernel
theorem part14 : Part 139 10 := by decide +kernel
theorem part15 : Part 149 10 := by decide +kernel
theorem part16 : Part 159 10 := by decide +kernel
theorem part17 : Part 169 10 := by decide +kernel
theorem part18 : Part 179 10 := by decide +kernel
theorem part19 : Part 189 10 := by decide +kernel
theorem part20 : Part 199 10 := by decide +kernel
theorem part21 : Part 209 10 := by decide +kernel
theorem part22 : Part 219 10 := by decide +kernel
theorem part23 : Part 229 10 := by decide +kernel
theorem part24 : Part 239 10 := by decide +kernel
theorem part25 : Part 249 10 := by decide +kernel
theorem part26 : Part 259 10 := by decide +kernel
theorem part27 : Part 269 10 := by decide +kernel
theorem part28 : Part 279 10 := by decide +kernel
theorem part29 : Part 289 11 := by decide +kernel
theorem part30 : Part 300 11 := by decide +kernel
theorem part31 : Part 311 11 := by decide +kernel
theorem part32 : Part 322 11 := by decide +kernel
theorem part33 : Part 333 11 := by decide +kernel
theorem part34 : Part 344 11 := by decide +kernel
theorem part35 : Part 355 11 := by decide +kernel
theorem part36 : Part 366 11 := by decide +kernel
theorem part37 : Part 377 11 := by decide +kernel
theorem part38 : Part 388 11 := by decide +kernel
theorem part39 : Part 399 11 := by decide +kernel
theorem part40 : Part 410 11 := by decide +kernel
theorem part41 : Part 421 11 := by decide +kernel
theorem part42 : Part 432 11 := by decide +kernel
theorem part43 : Part 443 11 := by decide +kernel
theorem part44 : Part 454 11 := by decide +kernel
theorem part45 : Part 465 11 := by decide +kernel
theorem part46 : Part 476 11 := by decide +kernel
theorem part47 : Part 487 11 := by decide +kernel
theorem part48 : Part 498 11 := by decide +kernel
theorem part49 : Part 509 11 := by decide +kernel
theorem part50 : Part 520 12 := by decide +kernel
theorem part51 : Part 532 12 := by decide +kernel
theorem part52 : Part 544 12 := by decide +kernel
theorem part53 : Part 556 12 := by decide +kernel
theorem part54 : Part 568 12 := by decide +kernel
theorem part55 : Part 580 12 := by decide +kernel
theorem part56 : Part 592 12 := by decide +kernel
theorem part57 : Part 604 12 := by decide +kernel
theorem part58 : Part 616 12 := by decide +kernel
theorem part59 : Part 628 12 := by decide +kernel
theorem part60 : Part 640 12 := by decide +kernel
theorem part61 : Part 652 12 := by decide +kernel
theorem part62 : Part 664 12 := by decide +kernel
theorem part63 : Part 676 12 := by decide +kernel
theorem part64 : Part 688 12 := by decide +kernel
theorem part65 : Part 700 12 := by decide +kernel
theorem part66 : Part 712 13 := by decide +kernel
theorem part67 : Part 725 13 := by decide +kernel
theorem part68 : Part 738 13 := by decide +kernel
theorem part69 : Part 751 13 := by decide +kernel
theorem part70 : Part 764 13 := by decide +kernel
theorem part71 : Part 777 13 := by decide +kernel
theorem part72 : Part 790 13 := by decide +kernel
theorem part73 : Part 803 13 := by decide +kernel
theorem part74 : Part 816 13 := by decide +kernel
theorem part75 : Part 829 13 := by decide +kernel
theorem part76 : Part 842 13 := by decide +kernel
theorem part77 : Part 855 13 := by decide +kernel
theorem part78 : Part 868 14 := by decide +kernel
theorem part79 : Part 882 14 := by decide +kernel

end FinProto.CrcFour
