import Verif.Proofs.CrcThree
/-
Four-bit errors and CRC32, part 2 of the computation: the sums of two of the first 3000 states of the shift register. Each theorem is one
computation of the kernel on about 32768 sums (`Packed.sumsDistinct`); together they cover all distances between the two states from
896 to 2998.
-/
namespace FinProto.CrcFour

-- one after the other: several at the same time need too much memory
set_option Elab.async false

theorem part80 : Part 896 14 := by decide +kernel
theorem part81 : Part 910 14 := by decide +kernel
theorem part82 : Part 924 14 := by decide +kernel
theorem part83 : Part 938 14 := by decide +kernel
theorem part84 : Part 952 14 := by decide +kernel
theorem part85 : Part 966 14 := by decide +kernel
theorem part86 : Part 980 14 := by decide +kernel
theorem part87 : Part 994 14 := by decide +kernel
theorem part88 : Part 1008 15 := by decide +kernel
theorem part89 : Part 1023 15 := by decide +kernel
theorem part90 : Part 1038 15 := by decide +kernel
theorem part91 : Part 1053 15 := by decide +kernel
theorem part92 : Part 1068 15 := by decide +kernel
theorem part93 : Part 1083 15 := by decide +kernel
theorem part94 : Part 1098 15 := by decide +kernel
theorem part95 : Part 1113 15 := by decide +kernel
theorem part96 : Part 1128 15 := by decide +kernel
theorem part97 : Part 1143 16 := by decide +kernel
theorem part98 : Part 1159 16 := by decide +kernel
theorem part99 : Part 1175 16 := by decide +kernel
theorem part100 : Part 1191 16 := by decide +kernel
theorem part101 : Part 1207 16 := by decide +kernel
theorem part102 : Part 1223 16 := by decide +kernel
theorem part103 : Part 1239 16 := by decide +kernel
theorem part104 : Part 1255 17 := by decide +kernel
theorem part105 : Part 1272 17 := by decide +kernel
theorem part106 : Part 1289 17 := by decide +kernel
theorem part107 : Part 1306 17 := by decide +kernel
theorem part108 : Part 1323 17 := by decide +kernel
theorem part109 : Part 1340 18 := by decide +kernel
theorem part110 : Part 1358 18 := by decide +kernel
theorem part111 : Part 1376 18 := by decide +kernel
theorem part112 : Part 1394 18 := by decide +kernel
theorem part113 : Part 1412 18 := by decide +kernel
theorem part114 : Part 1430 19 := by decide +kernel
theorem part115 : Part 1449 19 := by decide +kernel
theorem part116 : Part 1468 19 := by decide +kernel
theorem part117 : Part 1487 19 := by decide +kernel
theorem part118 : Part 1506 20 := by decide +kernel
theorem part119 : Part 1526 20 := by decide +kernel
theorem part120 : Part 1546 20 := by decide +kernel
theorem part121 : Part 1566 20 := by decide +kernel
theorem part122 : Part 1586 21 := by decide +kernel
theorem part123 : Part 1607 21 := by decide +kernel
theorem part124 : Part 1628 21 := by decide +kernel
theorem part125 : Part 1649 22 := by decide +kernel
theorem part126 : Part 1671 22 := by decide +kernel
theorem part127 : Part 1693 22 := by decide +kernel
theorem part128 : Part 1715 23 := by decide +kernel
theorem part129 : Part 1738 23 := by decide +kernel
theorem part130 : Part 1761 24 := by decide +kernel
theorem part131 : Part 1785 24 := by decide +kernel
theorem part132 : Part 1809 25 := by decide +kernel
theorem part133 : Part 1834 25 := by decide +kernel
theorem part134 : Part 1859 26 := by decide +kernel
theorem part135 : Part 1885 27 := by decide +kernel
theorem part136 : Part 1912 27 := by decide +kernel
theorem part137 : Part 1939 28 := by decide +kernel
theorem part138 : Part 1967 29 := by decide +kernel
theorem part139 : Part 1996 30 := by decide +kernel
theorem part140 : Part 2026 31 := by decide +kernel
theorem part141 : Part 2057 32 := by decide +kernel
theorem part142 : Part 2089 33 := by decide +kernel
theorem part143 : Part 2122 34 := by decide +kernel
theorem part144 : Part 2156 36 := by decide +kernel
theorem part145 : Part 2192 37 := by decide +kernel
theorem part146 : Part 2229 39 := by decide +kernel
theorem part147 : Part 2268 41 := by decide +kernel
theorem part148 : Part 2309 44 := by decide +kernel
theorem part149 : Part 2353 47 := by decide +kernel
theorem part150 : Part 2400 51 := by decide +kernel
theorem part151 : Part 2451 57 := by decide +kernel
theorem part152 : Part 2508 64 := by decide +kernel
theorem part153 : Part 2572 76 := by decide +kernel
theorem part154 : Part 2648 98 := by decide +kernel
theorem part155 : Part 2746 184 := by decide +kernel
theorem part156 : Part 2930 69 := by decide +kernel

end FinProto.CrcFour
