import Verif.Model.Asm

/-! Generated by tools/gen_asm.py from /repo/galois/vector_amd64.s and vector_arm64.s; do not edit.
Every line shows the instruction of the source file it stands for. -/

namespace Verif.Asm.Routines
open Verif.Asm

/-- galois/vector_amd64.s:11-74 `galMulSSSE3Xor` -/
def galMulSSSE3Xor : Code := [
  -- block 0
  ⟨[
    .movArg 0 .si,  -- :12  MOVQ low+0(FP), SI
    .movArg 24 .dx,  -- :13  MOVQ high+24(FP), DX
    .loadX false .si 0 6,  -- :14  MOVOU (SI), X6
    .loadX false .dx 0 7,  -- :15  MOVOU (DX), X7
    .movImm 15 .bx,  -- :16  MOVQ $15, BX
    .movqX .bx 8,  -- :17  MOVQ BX, X8
    .pxor 5 5,  -- :18  PXOR X5, X5
    .movArg 48 .si,  -- :19  MOVQ in+48(FP), SI
    .movArg 56 .r9,  -- :20  MOVQ in_len+56(FP), R9
    .movArg 72 .dx,  -- :21  MOVQ out+72(FP), DX
    .pshufb 5 8,  -- :22  PSHUFB X5, X8
    .shrq 4 .r9,  -- :23  SHRQ $4, R9
    .movGp .si .ax,  -- :24  MOVQ SI, AX
    .movGp .dx .bx,  -- :25  MOVQ DX, BX
    .andq 15 .ax,  -- :26  ANDQ $15, AX
    .andq 15 .bx,  -- :27  ANDQ $15, BX
    .cmpq .r9 0  -- :28  CMPQ R9, $0
   ], .jcc .zero 5 1⟩,  -- :29  JEQ done_xor
  -- block 1
  ⟨[
    .orq .ax .bx,  -- :30  ORQ AX, BX
    .cmpq .bx 0  -- :31  CMPQ BX, $0
   ], .jcc .nonzero 4 2⟩,  -- :32  JNZ loopback_xor
  -- block 2: loopback_xor_aligned
  ⟨[
    .loadX true .si 0 0,  -- :35  MOVOA (SI), X0
    .loadX true .dx 0 4,  -- :36  MOVOA (DX), X4
    .movX 0 1,  -- :37  MOVOA X0, X1
    .movX 6 2,  -- :38  MOVOA X6, X2
    .movX 7 3,  -- :39  MOVOA X7, X3
    .psrlq 4 1,  -- :40  PSRLQ $4, X1
    .pand 8 0,  -- :41  PAND X8, X0
    .pand 8 1,  -- :42  PAND X8, X1
    .pshufb 0 2,  -- :43  PSHUFB X0, X2
    .pshufb 1 3,  -- :44  PSHUFB X1, X3
    .pxor 2 3,  -- :45  PXOR X2, X3
    .pxor 4 3,  -- :46  PXOR X4, X3
    .storeX true 3 .dx 0,  -- :47  MOVOA X3, (DX)
    .addq 16 .si,  -- :48  ADDQ $16, SI
    .addq 16 .dx,  -- :49  ADDQ $16, DX
    .subq 1 .r9  -- :50  SUBQ $1, R9
   ], .jcc .nonzero 2 3⟩,  -- :51  JNZ loopback_xor_aligned
  -- block 3
  ⟨[
   ], .jmp 5⟩,  -- :52  JMP done_xor
  -- block 4: loopback_xor
  ⟨[
    .loadX false .si 0 0,  -- :55  MOVOU (SI), X0
    .loadX false .dx 0 4,  -- :56  MOVOU (DX), X4
    .movX 0 1,  -- :57  MOVOU X0, X1
    .movX 6 2,  -- :58  MOVOU X6, X2
    .movX 7 3,  -- :59  MOVOU X7, X3
    .psrlq 4 1,  -- :60  PSRLQ $4, X1
    .pand 8 0,  -- :61  PAND X8, X0
    .pand 8 1,  -- :62  PAND X8, X1
    .pshufb 0 2,  -- :63  PSHUFB X0, X2
    .pshufb 1 3,  -- :64  PSHUFB X1, X3
    .pxor 2 3,  -- :65  PXOR X2, X3
    .pxor 4 3,  -- :66  PXOR X4, X3
    .storeX false 3 .dx 0,  -- :67  MOVOU X3, (DX)
    .addq 16 .si,  -- :68  ADDQ $16, SI
    .addq 16 .dx,  -- :69  ADDQ $16, DX
    .subq 1 .r9  -- :70  SUBQ $1, R9
   ], .jcc .nonzero 4 5⟩,  -- :71  JNZ loopback_xor
  -- block 5: done_xor
  ⟨[
   ], .ret⟩  -- :74  RET
  ]

/-- galois/vector_amd64.s:77-136 `galMulSSSE3` -/
def galMulSSSE3 : Code := [
  -- block 0
  ⟨[
    .movArg 0 .si,  -- :78  MOVQ low+0(FP), SI
    .movArg 24 .dx,  -- :79  MOVQ high+24(FP), DX
    .loadX false .si 0 6,  -- :80  MOVOU (SI), X6
    .loadX false .dx 0 7,  -- :81  MOVOU (DX), X7
    .movImm 15 .bx,  -- :82  MOVQ $15, BX
    .movqX .bx 8,  -- :83  MOVQ BX, X8
    .pxor 5 5,  -- :84  PXOR X5, X5
    .movArg 48 .si,  -- :85  MOVQ in+48(FP), SI
    .movArg 56 .r9,  -- :86  MOVQ in_len+56(FP), R9
    .movArg 72 .dx,  -- :87  MOVQ out+72(FP), DX
    .pshufb 5 8,  -- :88  PSHUFB X5, X8
    .movGp .si .ax,  -- :89  MOVQ SI, AX
    .movGp .dx .bx,  -- :90  MOVQ DX, BX
    .shrq 4 .r9,  -- :91  SHRQ $4, R9
    .andq 15 .ax,  -- :92  ANDQ $15, AX
    .andq 15 .bx,  -- :93  ANDQ $15, BX
    .cmpq .r9 0  -- :94  CMPQ R9, $0
   ], .jcc .zero 5 1⟩,  -- :95  JEQ done
  -- block 1
  ⟨[
    .orq .ax .bx,  -- :96  ORQ AX, BX
    .cmpq .bx 0  -- :97  CMPQ BX, $0
   ], .jcc .nonzero 4 2⟩,  -- :98  JNZ loopback
  -- block 2: loopback_aligned
  ⟨[
    .loadX true .si 0 0,  -- :101  MOVOA (SI), X0
    .movX 0 1,  -- :102  MOVOA X0, X1
    .movX 6 2,  -- :103  MOVOA X6, X2
    .movX 7 3,  -- :104  MOVOA X7, X3
    .psrlq 4 1,  -- :105  PSRLQ $4, X1
    .pand 8 0,  -- :106  PAND X8, X0
    .pand 8 1,  -- :107  PAND X8, X1
    .pshufb 0 2,  -- :108  PSHUFB X0, X2
    .pshufb 1 3,  -- :109  PSHUFB X1, X3
    .pxor 2 3,  -- :110  PXOR X2, X3
    .storeX true 3 .dx 0,  -- :111  MOVOA X3, (DX)
    .addq 16 .si,  -- :112  ADDQ $16, SI
    .addq 16 .dx,  -- :113  ADDQ $16, DX
    .subq 1 .r9  -- :114  SUBQ $1, R9
   ], .jcc .nonzero 2 3⟩,  -- :115  JNZ loopback_aligned
  -- block 3
  ⟨[
   ], .jmp 5⟩,  -- :116  JMP done
  -- block 4: loopback
  ⟨[
    .loadX false .si 0 0,  -- :119  MOVOU (SI), X0
    .movX 0 1,  -- :120  MOVOU X0, X1
    .movX 6 2,  -- :121  MOVOA X6, X2
    .movX 7 3,  -- :122  MOVOA X7, X3
    .psrlq 4 1,  -- :123  PSRLQ $4, X1
    .pand 8 0,  -- :124  PAND X8, X0
    .pand 8 1,  -- :125  PAND X8, X1
    .pshufb 0 2,  -- :126  PSHUFB X0, X2
    .pshufb 1 3,  -- :127  PSHUFB X1, X3
    .pxor 2 3,  -- :128  PXOR X2, X3
    .storeX false 3 .dx 0,  -- :129  MOVOU X3, (DX)
    .addq 16 .si,  -- :130  ADDQ $16, SI
    .addq 16 .dx,  -- :131  ADDQ $16, DX
    .subq 1 .r9  -- :132  SUBQ $1, R9
   ], .jcc .nonzero 4 5⟩,  -- :133  JNZ loopback
  -- block 5: done
  ⟨[
   ], .ret⟩  -- :136  RET
  ]

/-- galois/vector_amd64.s:139-177 `galMulAVX2Xor` -/
def galMulAVX2Xor : Code := [
  -- block 0
  ⟨[
    .movArg 0 .si,  -- :140  MOVQ low+0(FP), SI
    .movArg 24 .dx,  -- :141  MOVQ high+24(FP), DX
    .movImm 15 .bx,  -- :142  MOVQ $15, BX
    .movqX .bx 5,  -- :143  MOVQ BX, X5
    .loadX false .si 0 6,  -- :144  MOVOU (SI), X6
    .loadX false .dx 0 7,  -- :145  MOVOU (DX), X7
    .movArg 56 .r9,  -- :146  MOVQ in_len+56(FP), R9
    .vinserti128 1 6 6 6,  -- :148  VINSERTI128 $1, X6, Y6, Y6
    .vinserti128 1 7 7 7,  -- :149  VINSERTI128 $1, X7, Y7, Y7
    .vpbroadcastb 5 8,  -- :150  VPBROADCASTB X5, Y8
    .shrq 5 .r9,  -- :152  SHRQ $5, R9
    .movArg 72 .dx,  -- :153  MOVQ out+72(FP), DX
    .movArg 48 .si,  -- :154  MOVQ in+48(FP), SI
    .testq .r9 .r9  -- :155  TESTQ R9, R9
   ], .jcc .zero 2 1⟩,  -- :156  JZ done_xor_avx2
  -- block 1: loopback_xor_avx2
  ⟨[
    .loadY .si 0 0,  -- :159  VMOVDQU (SI), Y0
    .loadY .dx 0 4,  -- :160  VMOVDQU (DX), Y4
    .vpsrlq 4 0 1,  -- :161  VPSRLQ $4, Y0, Y1
    .vpand 8 0 0,  -- :162  VPAND Y8, Y0, Y0
    .vpand 8 1 1,  -- :163  VPAND Y8, Y1, Y1
    .vpshufb 0 6 2,  -- :164  VPSHUFB Y0, Y6, Y2
    .vpshufb 1 7 3,  -- :165  VPSHUFB Y1, Y7, Y3
    .vpxor 3 2 3,  -- :166  VPXOR Y3, Y2, Y3
    .vpxor 4 3 4,  -- :167  VPXOR Y4, Y3, Y4
    .storeY 4 .dx 0,  -- :168  VMOVDQU Y4, (DX)
    .addq 32 .si,  -- :170  ADDQ $32, SI
    .addq 32 .dx,  -- :171  ADDQ $32, DX
    .subq 1 .r9  -- :172  SUBQ $1, R9
   ], .jcc .nonzero 1 2⟩,  -- :173  JNZ loopback_xor_avx2
  -- block 2: done_xor_avx2
  ⟨[
    .vzeroupper  -- :176  VZEROUPPER
   ], .ret⟩  -- :177  RET
  ]

/-- galois/vector_amd64.s:180-216 `galMulAVX2` -/
def galMulAVX2 : Code := [
  -- block 0
  ⟨[
    .movArg 0 .si,  -- :181  MOVQ low+0(FP), SI
    .movArg 24 .dx,  -- :182  MOVQ high+24(FP), DX
    .movImm 15 .bx,  -- :183  MOVQ $15, BX
    .movqX .bx 5,  -- :184  MOVQ BX, X5
    .loadX false .si 0 6,  -- :185  MOVOU (SI), X6
    .loadX false .dx 0 7,  -- :186  MOVOU (DX), X7
    .movArg 56 .r9,  -- :187  MOVQ in_len+56(FP), R9
    .vinserti128 1 6 6 6,  -- :189  VINSERTI128 $1, X6, Y6, Y6
    .vinserti128 1 7 7 7,  -- :190  VINSERTI128 $1, X7, Y7, Y7
    .vpbroadcastb 5 8,  -- :191  VPBROADCASTB X5, Y8
    .shrq 5 .r9,  -- :193  SHRQ $5, R9
    .movArg 72 .dx,  -- :194  MOVQ out+72(FP), DX
    .movArg 48 .si,  -- :195  MOVQ in+48(FP), SI
    .testq .r9 .r9  -- :196  TESTQ R9, R9
   ], .jcc .zero 2 1⟩,  -- :197  JZ done_avx2
  -- block 1: loopback_avx2
  ⟨[
    .loadY .si 0 0,  -- :200  VMOVDQU (SI), Y0
    .vpsrlq 4 0 1,  -- :201  VPSRLQ $4, Y0, Y1
    .vpand 8 0 0,  -- :202  VPAND Y8, Y0, Y0
    .vpand 8 1 1,  -- :203  VPAND Y8, Y1, Y1
    .vpshufb 0 6 2,  -- :204  VPSHUFB Y0, Y6, Y2
    .vpshufb 1 7 3,  -- :205  VPSHUFB Y1, Y7, Y3
    .vpxor 3 2 4,  -- :206  VPXOR Y3, Y2, Y4
    .storeY 4 .dx 0,  -- :207  VMOVDQU Y4, (DX)
    .addq 32 .si,  -- :209  ADDQ $32, SI
    .addq 32 .dx,  -- :210  ADDQ $32, DX
    .subq 1 .r9  -- :211  SUBQ $1, R9
   ], .jcc .nonzero 1 2⟩,  -- :212  JNZ loopback_avx2
  -- block 2: done_avx2
  ⟨[
    .vzeroupper  -- :215  VZEROUPPER
   ], .ret⟩  -- :216  RET
  ]

/-- galois/vector_amd64.s:219-238 `sSE2XorSlice` -/
def sSE2XorSlice : Code := [
  -- block 0
  ⟨[
    .movArg 0 .si,  -- :220  MOVQ in+0(FP), SI
    .movArg 8 .r9,  -- :221  MOVQ in_len+8(FP), R9
    .movArg 24 .dx,  -- :222  MOVQ out+24(FP), DX
    .shrq 4 .r9,  -- :223  SHRQ $4, R9
    .cmpq .r9 0  -- :224  CMPQ R9, $0
   ], .jcc .zero 2 1⟩,  -- :225  JEQ done_xor_sse2
  -- block 1: loopback_xor_sse2
  ⟨[
    .loadX false .si 0 0,  -- :228  MOVOU (SI), X0
    .loadX false .dx 0 1,  -- :229  MOVOU (DX), X1
    .pxor 0 1,  -- :230  PXOR X0, X1
    .storeX false 1 .dx 0,  -- :231  MOVOU X1, (DX)
    .addq 16 .si,  -- :232  ADDQ $16, SI
    .addq 16 .dx,  -- :233  ADDQ $16, DX
    .subq 1 .r9  -- :234  SUBQ $1, R9
   ], .jcc .nonzero 1 2⟩,  -- :235  JNZ loopback_xor_sse2
  -- block 2: done_xor_sse2
  ⟨[
   ], .ret⟩  -- :238  RET
  ]

/-- galois/vector_amd64.s:241-289 `galMulAVX2Xor_64` -/
def galMulAVX2Xor_64 : Code := [
  -- block 0
  ⟨[
    .movArg 0 .si,  -- :242  MOVQ low+0(FP), SI
    .movArg 24 .dx,  -- :243  MOVQ high+24(FP), DX
    .movImm 15 .bx,  -- :244  MOVQ $15, BX
    .movqX .bx 5,  -- :245  MOVQ BX, X5
    .loadX false .si 0 6,  -- :246  MOVOU (SI), X6
    .loadX false .dx 0 7,  -- :247  MOVOU (DX), X7
    .movArg 56 .r9,  -- :248  MOVQ in_len+56(FP), R9
    .vinserti128 1 6 6 6,  -- :250  VINSERTI128 $1, X6, Y6, Y6
    .vinserti128 1 7 7 7,  -- :251  VINSERTI128 $1, X7, Y7, Y7
    .vpbroadcastb 5 8,  -- :252  VPBROADCASTB X5, Y8
    .shrq 6 .r9,  -- :254  SHRQ $6, R9
    .movArg 72 .dx,  -- :255  MOVQ out+72(FP), DX
    .movArg 48 .si,  -- :256  MOVQ in+48(FP), SI
    .testq .r9 .r9  -- :257  TESTQ R9, R9
   ], .jcc .zero 2 1⟩,  -- :258  JZ done_xor_avx2_64
  -- block 1: loopback_xor_avx2_64
  ⟨[
    .loadY .si 0 0,  -- :261  VMOVDQU (SI), Y0
    .loadY .si 32 10,  -- :262  VMOVDQU 32(SI), Y10
    .loadY .dx 0 4,  -- :263  VMOVDQU (DX), Y4
    .loadY .dx 32 14,  -- :264  VMOVDQU 32(DX), Y14
    .vpsrlq 4 0 1,  -- :265  VPSRLQ $4, Y0, Y1
    .vpsrlq 4 10 11,  -- :266  VPSRLQ $4, Y10, Y11
    .vpand 8 0 0,  -- :267  VPAND Y8, Y0, Y0
    .vpand 8 10 10,  -- :268  VPAND Y8, Y10, Y10
    .vpand 8 1 1,  -- :269  VPAND Y8, Y1, Y1
    .vpand 8 11 11,  -- :270  VPAND Y8, Y11, Y11
    .vpshufb 0 6 2,  -- :271  VPSHUFB Y0, Y6, Y2
    .vpshufb 10 6 12,  -- :272  VPSHUFB Y10, Y6, Y12
    .vpshufb 1 7 3,  -- :273  VPSHUFB Y1, Y7, Y3
    .vpshufb 11 7 13,  -- :274  VPSHUFB Y11, Y7, Y13
    .vpxor 3 2 3,  -- :275  VPXOR Y3, Y2, Y3
    .vpxor 13 12 13,  -- :276  VPXOR Y13, Y12, Y13
    .vpxor 4 3 4,  -- :277  VPXOR Y4, Y3, Y4
    .vpxor 14 13 14,  -- :278  VPXOR Y14, Y13, Y14
    .storeY 4 .dx 0,  -- :279  VMOVDQU Y4, (DX)
    .storeY 14 .dx 32,  -- :280  VMOVDQU Y14, 32(DX)
    .addq 64 .si,  -- :282  ADDQ $64, SI
    .addq 64 .dx,  -- :283  ADDQ $64, DX
    .subq 1 .r9  -- :284  SUBQ $1, R9
   ], .jcc .nonzero 1 2⟩,  -- :285  JNZ loopback_xor_avx2_64
  -- block 2: done_xor_avx2_64
  ⟨[
    .vzeroupper  -- :288  VZEROUPPER
   ], .ret⟩  -- :289  RET
  ]

/-- galois/vector_amd64.s:292-336 `galMulAVX2_64` -/
def galMulAVX2_64 : Code := [
  -- block 0
  ⟨[
    .movArg 0 .si,  -- :293  MOVQ low+0(FP), SI
    .movArg 24 .dx,  -- :294  MOVQ high+24(FP), DX
    .movImm 15 .bx,  -- :295  MOVQ $15, BX
    .movqX .bx 5,  -- :296  MOVQ BX, X5
    .loadX false .si 0 6,  -- :297  MOVOU (SI), X6
    .loadX false .dx 0 7,  -- :298  MOVOU (DX), X7
    .movArg 56 .r9,  -- :299  MOVQ in_len+56(FP), R9
    .vinserti128 1 6 6 6,  -- :301  VINSERTI128 $1, X6, Y6, Y6
    .vinserti128 1 7 7 7,  -- :302  VINSERTI128 $1, X7, Y7, Y7
    .vpbroadcastb 5 8,  -- :303  VPBROADCASTB X5, Y8
    .shrq 6 .r9,  -- :305  SHRQ $6, R9
    .movArg 72 .dx,  -- :306  MOVQ out+72(FP), DX
    .movArg 48 .si,  -- :307  MOVQ in+48(FP), SI
    .testq .r9 .r9  -- :308  TESTQ R9, R9
   ], .jcc .zero 2 1⟩,  -- :309  JZ done_avx2_64
  -- block 1: loopback_avx2_64
  ⟨[
    .loadY .si 0 0,  -- :312  VMOVDQU (SI), Y0
    .loadY .si 32 10,  -- :313  VMOVDQU 32(SI), Y10
    .vpsrlq 4 0 1,  -- :314  VPSRLQ $4, Y0, Y1
    .vpsrlq 4 10 11,  -- :315  VPSRLQ $4, Y10, Y11
    .vpand 8 0 0,  -- :316  VPAND Y8, Y0, Y0
    .vpand 8 10 10,  -- :317  VPAND Y8, Y10, Y10
    .vpand 8 1 1,  -- :318  VPAND Y8, Y1, Y1
    .vpand 8 11 11,  -- :319  VPAND Y8, Y11, Y11
    .vpshufb 0 6 2,  -- :320  VPSHUFB Y0, Y6, Y2
    .vpshufb 10 6 12,  -- :321  VPSHUFB Y10, Y6, Y12
    .vpshufb 1 7 3,  -- :322  VPSHUFB Y1, Y7, Y3
    .vpshufb 11 7 13,  -- :323  VPSHUFB Y11, Y7, Y13
    .vpxor 3 2 4,  -- :324  VPXOR Y3, Y2, Y4
    .vpxor 13 12 14,  -- :325  VPXOR Y13, Y12, Y14
    .storeY 4 .dx 0,  -- :326  VMOVDQU Y4, (DX)
    .storeY 14 .dx 32,  -- :327  VMOVDQU Y14, 32(DX)
    .addq 64 .si,  -- :329  ADDQ $64, SI
    .addq 64 .dx,  -- :330  ADDQ $64, DX
    .subq 1 .r9  -- :331  SUBQ $1, R9
   ], .jcc .nonzero 1 2⟩,  -- :332  JNZ loopback_avx2_64
  -- block 2: done_avx2_64
  ⟨[
    .vzeroupper  -- :335  VZEROUPPER
   ], .ret⟩  -- :336  RET
  ]

/-- galois/vector_amd64.s:339-370 `sSE2XorSlice_64` -/
def sSE2XorSlice_64 : Code := [
  -- block 0
  ⟨[
    .movArg 0 .si,  -- :340  MOVQ in+0(FP), SI
    .movArg 8 .r9,  -- :341  MOVQ in_len+8(FP), R9
    .movArg 24 .dx,  -- :342  MOVQ out+24(FP), DX
    .shrq 6 .r9,  -- :343  SHRQ $6, R9
    .cmpq .r9 0  -- :344  CMPQ R9, $0
   ], .jcc .zero 2 1⟩,  -- :345  JEQ done_xor_sse2_64
  -- block 1: loopback_xor_sse2_64
  ⟨[
    .loadX false .si 0 0,  -- :348  MOVOU (SI), X0
    .loadX false .si 16 2,  -- :349  MOVOU 16(SI), X2
    .loadX false .si 32 4,  -- :350  MOVOU 32(SI), X4
    .loadX false .si 48 6,  -- :351  MOVOU 48(SI), X6
    .loadX false .dx 0 1,  -- :352  MOVOU (DX), X1
    .loadX false .dx 16 3,  -- :353  MOVOU 16(DX), X3
    .loadX false .dx 32 5,  -- :354  MOVOU 32(DX), X5
    .loadX false .dx 48 7,  -- :355  MOVOU 48(DX), X7
    .pxor 0 1,  -- :356  PXOR X0, X1
    .pxor 2 3,  -- :357  PXOR X2, X3
    .pxor 4 5,  -- :358  PXOR X4, X5
    .pxor 6 7,  -- :359  PXOR X6, X7
    .storeX false 1 .dx 0,  -- :360  MOVOU X1, (DX)
    .storeX false 3 .dx 16,  -- :361  MOVOU X3, 16(DX)
    .storeX false 5 .dx 32,  -- :362  MOVOU X5, 32(DX)
    .storeX false 7 .dx 48,  -- :363  MOVOU X7, 48(DX)
    .addq 64 .si,  -- :364  ADDQ $64, SI
    .addq 64 .dx,  -- :365  ADDQ $64, DX
    .subq 1 .r9  -- :366  SUBQ $1, R9
   ], .jcc .nonzero 1 2⟩,  -- :367  JNZ loopback_xor_sse2_64
  -- block 2: done_xor_sse2_64
  ⟨[
   ], .ret⟩  -- :370  RET
  ]

/-- galois/vector_arm64.s:29-61 `galMulNEON` -/
def galMulNEON : Code := [
  -- block 0
  ⟨[
    .movArg 48 .r1,  -- :30  MOVD in_base+48(FP), R1
    .movArg 56 .r2,  -- :31  MOVD in_len+56(FP), R2
    .movArg 72 .r5,  -- :32  MOVD out_base+72(FP), R5
    .subs 32 .r2  -- :33  SUBS $32, R2
   ], .jcc .minus 3 1⟩,  -- :34  BMI complete
  -- block 1
  ⟨[
    .movArg 0 .r10,  -- :36  MOVD low+0(FP), R10
    .movArg 24 .r11,  -- :37  MOVD high+24(FP), R11
    .vld1 0 .r10 [6],  -- :38  VLD1 (R10), [V6.B16]
    .vld1 0 .r11 [7],  -- :39  VLD1 (R11), [V7.B16]
    .movImm 15 .r3,  -- :45  MOVD $0x0f, R3
    .vmovB0 .r3 8,  -- :46  VMOV R3, V8.B[0]
    .vdupB0 8 8  -- :47  VDUP V8.B[0], V8.B16
   ], .jmp 2⟩,  -- falls through
  -- block 2: loop
  ⟨[
    .vld1 32 .r1 [0, 1],  -- :51 (:9)  VLD1.P 32(R1), [V0.B16, V1.B16]
    .vushr 4 0 10,  -- :51 (:12)  VUSHR $4, V0.B16, V10.B16
    .vushr 4 1 11,  -- :51 (:13)  VUSHR $4, V1.B16, V11.B16
    .vandN 8 0 0,  -- :51 (:14)  VAND V8.B16, V0.B16, V0.B16
    .vandN 8 1 1,  -- :51 (:15)  VAND V8.B16, V1.B16, V1.B16
    .vtbl 0 6 4,  -- :52 (:19)  VTBL V0.B16, [V6.B16], V4.B16
    .vtbl 10 7 5,  -- :52 (:20)  VTBL V10.B16, [V7.B16], V5.B16
    .vtbl 1 6 14,  -- :52 (:21)  VTBL V1.B16, [V6.B16], V14.B16
    .vtbl 11 7 15,  -- :52 (:22)  VTBL V11.B16, [V7.B16], V15.B16
    .veor 5 4 4,  -- :52 (:25)  VEOR V5.B16, V4.B16, V4.B16
    .veor 15 14 5,  -- :52 (:26)  VEOR V15.B16, V14.B16, V5.B16
    .vst1 32 .r5 [4, 5],  -- :55  VST1.P [V4.D2, V5.D2], 32(R5)
    .subs 32 .r2  -- :57  SUBS $32, R2
   ], .jcc .plus 2 3⟩,  -- :58  BPL loop
  -- block 3: complete
  ⟨[
   ], .ret⟩  -- :61  RET
  ]

/-- galois/vector_arm64.s:64-101 `galMulXorNEON` -/
def galMulXorNEON : Code := [
  -- block 0
  ⟨[
    .movArg 48 .r1,  -- :65  MOVD in_base+48(FP), R1
    .movArg 56 .r2,  -- :66  MOVD in_len+56(FP), R2
    .movArg 72 .r5,  -- :67  MOVD out_base+72(FP), R5
    .subs 32 .r2  -- :68  SUBS $32, R2
   ], .jcc .minus 3 1⟩,  -- :69  BMI completeXor
  -- block 1
  ⟨[
    .movArg 0 .r10,  -- :71  MOVD low+0(FP), R10
    .movArg 24 .r11,  -- :72  MOVD high+24(FP), R11
    .vld1 0 .r10 [6],  -- :73  VLD1 (R10), [V6.B16]
    .vld1 0 .r11 [7],  -- :74  VLD1 (R11), [V7.B16]
    .movImm 15 .r3,  -- :80  MOVD $0x0f, R3
    .vmovB0 .r3 8,  -- :81  VMOV R3, V8.B[0]
    .vdupB0 8 8  -- :82  VDUP V8.B[0], V8.B16
   ], .jmp 2⟩,  -- falls through
  -- block 2: loopXor
  ⟨[
    .vld1 0 .r5 [20, 21],  -- :86  VLD1 (R5), [V20.B16, V21.B16]
    .vld1 32 .r1 [0, 1],  -- :88 (:9)  VLD1.P 32(R1), [V0.B16, V1.B16]
    .vushr 4 0 10,  -- :88 (:12)  VUSHR $4, V0.B16, V10.B16
    .vushr 4 1 11,  -- :88 (:13)  VUSHR $4, V1.B16, V11.B16
    .vandN 8 0 0,  -- :88 (:14)  VAND V8.B16, V0.B16, V0.B16
    .vandN 8 1 1,  -- :88 (:15)  VAND V8.B16, V1.B16, V1.B16
    .vtbl 0 6 4,  -- :89 (:19)  VTBL V0.B16, [V6.B16], V4.B16
    .vtbl 10 7 5,  -- :89 (:20)  VTBL V10.B16, [V7.B16], V5.B16
    .vtbl 1 6 14,  -- :89 (:21)  VTBL V1.B16, [V6.B16], V14.B16
    .vtbl 11 7 15,  -- :89 (:22)  VTBL V11.B16, [V7.B16], V15.B16
    .veor 5 4 4,  -- :89 (:25)  VEOR V5.B16, V4.B16, V4.B16
    .veor 15 14 5,  -- :89 (:26)  VEOR V15.B16, V14.B16, V5.B16
    .veor 20 4 4,  -- :91  VEOR V20.B16, V4.B16, V4.B16
    .veor 21 5 5,  -- :92  VEOR V21.B16, V5.B16, V5.B16
    .vst1 32 .r5 [4, 5],  -- :95  VST1.P [V4.D2, V5.D2], 32(R5)
    .subs 32 .r2  -- :97  SUBS $32, R2
   ], .jcc .plus 2 3⟩,  -- :98  BPL loopXor
  -- block 3: completeXor
  ⟨[
   ], .ret⟩  -- :101  RET
  ]

/-- galois/vector_arm64.s:104-126 `galXorNEON` -/
def galXorNEON : Code := [
  -- block 0
  ⟨[
    .movArg 0 .r1,  -- :105  MOVD in_base+0(FP), R1
    .movArg 8 .r2,  -- :106  MOVD in_len+8(FP), R2
    .movArg 24 .r5,  -- :107  MOVD out_base+24(FP), R5
    .subs 32 .r2  -- :108  SUBS $32, R2
   ], .jcc .minus 2 1⟩,  -- :109  BMI completeXor
  -- block 1: loopXor
  ⟨[
    .vld1 32 .r1 [0, 1],  -- :113  VLD1.P 32(R1), [V0.B16, V1.B16]
    .vld1 0 .r5 [20, 21],  -- :114  VLD1 (R5), [V20.B16, V21.B16]
    .veor 20 0 4,  -- :116  VEOR V20.B16, V0.B16, V4.B16
    .veor 21 1 5,  -- :117  VEOR V21.B16, V1.B16, V5.B16
    .vst1 32 .r5 [4, 5],  -- :120  VST1.P [V4.D2, V5.D2], 32(R5)
    .subs 32 .r2  -- :122  SUBS $32, R2
   ], .jcc .plus 1 2⟩,  -- :123  BPL loopXor
  -- block 2: completeXor
  ⟨[
   ], .ret⟩  -- :126  RET
  ]

end Verif.Asm.Routines
