import Verif.Lemmas.SimdDct
/-
The rows of the transform matrices as numbers: digit 0 (base 65536) is the rounding, digit `i + 1` the entry for frequency `i`; the negative
entries are in the second number.  That they are those of `dctMat` is checked.
-/
namespace Davs2.Si

set_option maxRecDepth 100000

def tab_4_4_16 : List (Nat × Nat) := [
  (0x110020002a00200010, 0x0),
  (0x1100200010, 0x2a0020000000000000),
  (0x2a0000000000200010, 0x20001100000000),
  (0x20000000200010, 0x110000002a00000000)]

theorem tab_4_4_16_ok : tabOk 4 4 16 tab_4_4_16 := by decide +kernel

def tab_4_4_2048 : List (Nat × Nat) := [
  (0x110020002a00200800, 0x0),
  (0x1100200800, 0x2a0020000000000000),
  (0x2a0000000000200800, 0x20001100000000),
  (0x20000000200800, 0x110000002a00000000)]

theorem tab_4_4_2048_ok : tabOk 4 4 2048 tab_4_4_2048 := by decide +kernel

def tab_8_8_16 : List (Nat × Nat) := [
  (0x90011001900200026002a002c00200010, 0x0),
  (0x11002600200010, 0x19002a002c002000090000000000000000),
  (0x26002a0009000000000000001900200010, 0x20002c0011000000000000),
  (0x26002000000000000900200010, 0x2c0011000000000019002a000000000000),
  (0x2c00000000002000190000000000200010, 0x11002600000000002a000900000000),
  (0x2a00000000002c0000000000200010, 0x2600000009002000000011001900000000),
  (0x190000002c000000090011000000200010, 0x2a0000002000000000002600000000),
  (0x11000000200000002a000000200010, 0x900000019000000260000002c00000000)]

theorem tab_8_8_16_ok : tabOk 8 8 16 tab_8_8_16 := by decide +kernel

def tab_8_8_1024 : List (Nat × Nat) := [
  (0x90011001900200026002a002c00200400, 0x0),
  (0x11002600200400, 0x19002a002c002000090000000000000000),
  (0x26002a0009000000000000001900200400, 0x20002c0011000000000000),
  (0x26002000000000000900200400, 0x2c0011000000000019002a000000000000),
  (0x2c00000000002000190000000000200400, 0x11002600000000002a000900000000),
  (0x2a00000000002c0000000000200400, 0x2600000009002000000011001900000000),
  (0x190000002c000000090011000000200400, 0x2a0000002000000000002600000000),
  (0x11000000200000002a000000200400, 0x900000019000000260000002c00000000)]

theorem tab_8_8_1024_ok : tabOk 8 8 1024 tab_8_8_1024 := by decide +kernel

def tab_8_8_2048 : List (Nat × Nat) := [
  (0x90011001900200026002a002c00200800, 0x0),
  (0x11002600200800, 0x19002a002c002000090000000000000000),
  (0x26002a0009000000000000001900200800, 0x20002c0011000000000000),
  (0x26002000000000000900200800, 0x2c0011000000000019002a000000000000),
  (0x2c00000000002000190000000000200800, 0x11002600000000002a000900000000),
  (0x2a00000000002c0000000000200800, 0x2600000009002000000011001900000000),
  (0x190000002c000000090011000000200800, 0x2a0000002000000000002600000000),
  (0x11000000200000002a000000200800, 0x900000019000000260000002c00000000)]

theorem tab_8_8_2048_ok : tabOk 8 8 2048 tab_8_8_2048 := by decide +kernel

def tab_16_4_16 : List (Nat × Nat) := [
  (0x2b002c002d00200010, 0x0),
  (0x1d0026002b00200010, 0x0),
  (0x40019002800200010, 0x0),
  (0x9002300200010, 0x150000000000000000),
  (0x1d00200010, 0x280009000000000000),
  (0x1500200010, 0x2d0019000000000000),
  (0xd00200010, 0x230026000000000000),
  (0x400200010, 0xd002c000000000000),
  (0xd0000000000200010, 0x2c000400000000),
  (0x230000000000200010, 0x26000d00000000),
  (0x2d0000000000200010, 0x19001500000000),
  (0x280000000000200010, 0x9001d00000000),
  (0x150009000000200010, 0x2300000000),
  (0x19000000200010, 0x40000002800000000),
  (0x26000000200010, 0x1d0000002b00000000),
  (0x2c000000200010, 0x2b0000002d00000000)]

theorem tab_16_4_16_ok : tabOk 16 4 16 tab_16_4_16 := by decide +kernel

def tab_16_4_2048 : List (Nat × Nat) := [
  (0x2b002c002d00200800, 0x0),
  (0x1d0026002b00200800, 0x0),
  (0x40019002800200800, 0x0),
  (0x9002300200800, 0x150000000000000000),
  (0x1d00200800, 0x280009000000000000),
  (0x1500200800, 0x2d0019000000000000),
  (0xd00200800, 0x230026000000000000),
  (0x400200800, 0xd002c000000000000),
  (0xd0000000000200800, 0x2c000400000000),
  (0x230000000000200800, 0x26000d00000000),
  (0x2d0000000000200800, 0x19001500000000),
  (0x280000000000200800, 0x9001d00000000),
  (0x150009000000200800, 0x2300000000),
  (0x19000000200800, 0x40000002800000000),
  (0x26000000200800, 0x1d0000002b00000000),
  (0x2c000000200800, 0x2b0000002d00000000)]

theorem tab_16_4_2048_ok : tabOk 16 4 2048 tab_16_4_2048 := by decide +kernel

def tab_16_8_16 : List (Nat × Nat) := [
  (0x2300260028002a002b002c002d00200010, 0x0),
  (0x40011001d0026002b00200010, 0x1500090000000000000000000000000000),
  (0x40019002800200010, 0x2b002c0023001100000000000000000000),
  (0x400000000000000000009002300200010, 0x19002b002a00150000000000000000),
  (0x2d00190000000000000000001d00200010, 0xd002a00280009000000000000),
  (0xd002c001d000000000000001500200010, 0x11002d0019000000000000),
  (0x9002d001100000000000d00200010, 0x2800000000000000230026000000000000),
  (0x15002a00000000000400200010, 0x1d002600000000000d002c000000000000),
  (0x1d00000000002a000d0000000000200010, 0x26001500000000002c000400000000),
  (0x2800090000001100230000000000200010, 0x2d000000000026000d00000000),
  (0x2c00000000002d0000000000200010, 0xd0000001d001100000019001500000000),
  (0x19000d000000280000000000200010, 0x2d00000000002a00000009001d00000000),
  (0x2b000000150009000000200010, 0x400190000002a00000000002300000000),
  (0x2b00000023000000000019000000200010, 0x2c0000001100040000002800000000),
  (0x1500000000001100000026000000200010, 0x900040000001d0000002b00000000),
  (0x260000002a0000002c000000200010, 0x23000000280000002b0000002d00000000)]

theorem tab_16_8_16_ok : tabOk 16 8 16 tab_16_8_16 := by decide +kernel

def tab_16_8_2048 : List (Nat × Nat) := [
  (0x2300260028002a002b002c002d00200800, 0x0),
  (0x40011001d0026002b00200800, 0x1500090000000000000000000000000000),
  (0x40019002800200800, 0x2b002c0023001100000000000000000000),
  (0x400000000000000000009002300200800, 0x19002b002a00150000000000000000),
  (0x2d00190000000000000000001d00200800, 0xd002a00280009000000000000),
  (0xd002c001d000000000000001500200800, 0x11002d0019000000000000),
  (0x9002d001100000000000d00200800, 0x2800000000000000230026000000000000),
  (0x15002a00000000000400200800, 0x1d002600000000000d002c000000000000),
  (0x1d00000000002a000d0000000000200800, 0x26001500000000002c000400000000),
  (0x2800090000001100230000000000200800, 0x2d000000000026000d00000000),
  (0x2c00000000002d0000000000200800, 0xd0000001d001100000019001500000000),
  (0x19000d000000280000000000200800, 0x2d00000000002a00000009001d00000000),
  (0x2b000000150009000000200800, 0x400190000002a00000000002300000000),
  (0x2b00000023000000000019000000200800, 0x2c0000001100040000002800000000),
  (0x1500000000001100000026000000200800, 0x900040000001d0000002b00000000),
  (0x260000002a0000002c000000200800, 0x23000000280000002b0000002d00000000)]

theorem tab_16_8_2048_ok : tabOk 16 8 2048 tab_16_8_2048 := by decide +kernel

def tab_16_16_16 : List (Nat × Nat) := [
  (0x40009000d001100150019001d0020002300260028002a002b002c002d00200010, 0x0),
  (0x40011001d0026002b00200010, 0xd00190023002a002d002c00280020001500090000000000000000000000000000),
  (0x150026002d002a001d000900000000000000000000000000040019002800200010, 0xd0020002b002c0023001100000000000000000000),
  (0xd0026002d0020000400000000000000000009002300200010, 0x1d002c00280011000000000000000000000019002b002a00150000000000000000),
  (0x23002c001500000000000000000020002d00190000000000000000001d00200010, 0x11002b00260004000000000000000d002a00280009000000000000),
  (0x4002a0023000000000000000d002c001d000000000000001500200010, 0x2800260000000000000009002b00200000000000000011002d0019000000000000),
  (0x2b0019000000000004002c0015000000000009002d001100000000000d00200010, 0x1d002a0000000000000020002800000000000000230026000000000000),
  (0x2b00110000000000230020000000000015002a00000000000400200010, 0x2d0009000000000028001900000000001d002600000000000d002c000000000000),
  (0x2d0000000000110028000000000020001d00000000002a000d0000000000200010, 0x9002b0000000000190023000000000026001500000000002c000400000000),
  (0x19001d00000000002c00000000002800090000001100230000000000200010, 0x2b00000000002a000400000015002000000000002d000000000026000d00000000),
  (0x2800000000002a00000000002b00000000002c00000000002d0000000000200010, 0x26000400000023000900000020000d0000001d001100000019001500000000),
  (0x2c00000000002b00000004002000000019000d000000280000000000200010, 0x230000001500110000002600000000002d00000000002a00000009001d00000000),
  (0x1d000000280000000000260000002000000000002b000000150009000000200010, 0x2c00000011000d0000002d0000000400190000002a00000000002300000000),
  (0x260000002a00000009000d0000002b00000023000000000019000000200010, 0x150000002d0000001d0000000000200000002c0000001100040000002800000000),
  (0xd000000230000002d000000280000001500000000001100000026000000200010, 0x190000002a0000002c000000200000000900040000001d0000002b00000000),
  (0x9000000110000001900000020000000260000002a0000002c000000200010, 0x40000000d000000150000001d00000023000000280000002b0000002d00000000)]

theorem tab_16_16_16_ok : tabOk 16 16 16 tab_16_16_16 := by decide +kernel

def tab_16_16_2048 : List (Nat × Nat) := [
  (0x40009000d001100150019001d0020002300260028002a002b002c002d00200800, 0x0),
  (0x40011001d0026002b00200800, 0xd00190023002a002d002c00280020001500090000000000000000000000000000),
  (0x150026002d002a001d000900000000000000000000000000040019002800200800, 0xd0020002b002c0023001100000000000000000000),
  (0xd0026002d0020000400000000000000000009002300200800, 0x1d002c00280011000000000000000000000019002b002a00150000000000000000),
  (0x23002c001500000000000000000020002d00190000000000000000001d00200800, 0x11002b00260004000000000000000d002a00280009000000000000),
  (0x4002a0023000000000000000d002c001d000000000000001500200800, 0x2800260000000000000009002b00200000000000000011002d0019000000000000),
  (0x2b0019000000000004002c0015000000000009002d001100000000000d00200800, 0x1d002a0000000000000020002800000000000000230026000000000000),
  (0x2b00110000000000230020000000000015002a00000000000400200800, 0x2d0009000000000028001900000000001d002600000000000d002c000000000000),
  (0x2d0000000000110028000000000020001d00000000002a000d0000000000200800, 0x9002b0000000000190023000000000026001500000000002c000400000000),
  (0x19001d00000000002c00000000002800090000001100230000000000200800, 0x2b00000000002a000400000015002000000000002d000000000026000d00000000),
  (0x2800000000002a00000000002b00000000002c00000000002d0000000000200800, 0x26000400000023000900000020000d0000001d001100000019001500000000),
  (0x2c00000000002b00000004002000000019000d000000280000000000200800, 0x230000001500110000002600000000002d00000000002a00000009001d00000000),
  (0x1d000000280000000000260000002000000000002b000000150009000000200800, 0x2c00000011000d0000002d0000000400190000002a00000000002300000000),
  (0x260000002a00000009000d0000002b00000023000000000019000000200800, 0x150000002d0000001d0000000000200000002c0000001100040000002800000000),
  (0xd000000230000002d000000280000001500000000001100000026000000200800, 0x190000002a0000002c000000200000000900040000001d0000002b00000000),
  (0x9000000110000001900000020000000260000002a0000002c000000200800, 0x40000000d000000150000001d00000023000000280000002b0000002d00000000)]

theorem tab_16_16_2048_ok : tabOk 16 16 2048 tab_16_16_2048 := by decide +kernel

def tab_32_8_16 : List (Nat × Nat) := [
  (0x2b002b002c002c002d002d002d00200010, 0x0),
  (0x17001d002200260029002b002d00200010, 0x0),
  (0x4000f001900220028002c00200010, 0x700000000000000000000000000000000),
  (0x900170023002b00200010, 0x2200150007000000000000000000000000),
  (0xb001d002900200010, 0x2d0028001b000900000000000000000000),
  (0x15002700200010, 0x24002d0029001900020000000000000000),
  (0xd002400200010, 0xb0023002d0026000f0000000000000000),
  (0x1300000000000000000004002200200010, 0xd0027002c001b0000000000000000),
  (0x29000d0000000000000000001e00200010, 0x17002c00240004000000000000),
  (0x2c00230000000000000000001b00200010, 0x20026002b000d000000000000),
  (0x1b002d0013000000000000001700200010, 0x19002d0015000000000000),
  (0x280024000000000000001300200010, 0x2000000000009002c001d000000000000),
  (0x15002d000900000000000f00200010, 0x1e00000000000000270023000000000000),
  (0x2b001900000000000b00200010, 0x2d000400000000001e0028000000000000),
  (0x1e002600000000000700200010, 0x27001d000000000013002b000000000000),
  (0xb002c00000000000200200010, 0xf002b000000000007002d000000000000),
  (0xf00000000002c00070000000000200010, 0x2b000b00000000002d000200000000),
  (0x2700000000002600130000000000200010, 0x1d001e00000000002b000700000000),
  (0x2d000000000019001e0000000000200010, 0x4002b000000000028000b00000000),
  (0x1e00150000000900270000000000200010, 0x2d000000000023000f00000000),
  (0x2002800000000002c0000000000200010, 0x2400090000001d001300000000),
  (0x2d00000000002d0000000000200010, 0x1b00000013001900000015001700000000),
  (0x2300020000002b0000000000200010, 0x2c0000000000260000000d001b00000000),
  (0xd0017000000240000000000200010, 0x2900000000002c00000004001e00000000),
  (0x270000001b0004000000200010, 0x13000d0000002c00000000002200000000),
  (0xb0000002d0000000f000d000000200010, 0x230000002600000000002400000000),
  (0x2400000029000000020015000000200010, 0x2d0000001900000000002700000000),
  (0x2d0000001b00000000001d000000200010, 0x2800000009000b0000002900000000),
  (0x2200000007000900000023000000200010, 0x150000000000170000002b00000000),
  (0x700040000001900000028000000200010, 0xf000000220000002c00000000),
  (0x1d000000260000002b000000200010, 0x1700000022000000290000002d00000000),
  (0x2b0000002c0000002d000000200010, 0x2b0000002c0000002d0000002d00000000)]

theorem tab_32_8_16_ok : tabOk 32 8 16 tab_32_8_16 := by decide +kernel

def tab_32_8_1024 : List (Nat × Nat) := [
  (0x2b002b002c002c002d002d002d00200400, 0x0),
  (0x17001d002200260029002b002d00200400, 0x0),
  (0x4000f001900220028002c00200400, 0x700000000000000000000000000000000),
  (0x900170023002b00200400, 0x2200150007000000000000000000000000),
  (0xb001d002900200400, 0x2d0028001b000900000000000000000000),
  (0x15002700200400, 0x24002d0029001900020000000000000000),
  (0xd002400200400, 0xb0023002d0026000f0000000000000000),
  (0x1300000000000000000004002200200400, 0xd0027002c001b0000000000000000),
  (0x29000d0000000000000000001e00200400, 0x17002c00240004000000000000),
  (0x2c00230000000000000000001b00200400, 0x20026002b000d000000000000),
  (0x1b002d0013000000000000001700200400, 0x19002d0015000000000000),
  (0x280024000000000000001300200400, 0x2000000000009002c001d000000000000),
  (0x15002d000900000000000f00200400, 0x1e00000000000000270023000000000000),
  (0x2b001900000000000b00200400, 0x2d000400000000001e0028000000000000),
  (0x1e002600000000000700200400, 0x27001d000000000013002b000000000000),
  (0xb002c00000000000200200400, 0xf002b000000000007002d000000000000),
  (0xf00000000002c00070000000000200400, 0x2b000b00000000002d000200000000),
  (0x2700000000002600130000000000200400, 0x1d001e00000000002b000700000000),
  (0x2d000000000019001e0000000000200400, 0x4002b000000000028000b00000000),
  (0x1e00150000000900270000000000200400, 0x2d000000000023000f00000000),
  (0x2002800000000002c0000000000200400, 0x2400090000001d001300000000),
  (0x2d00000000002d0000000000200400, 0x1b00000013001900000015001700000000),
  (0x2300020000002b0000000000200400, 0x2c0000000000260000000d001b00000000),
  (0xd0017000000240000000000200400, 0x2900000000002c00000004001e00000000),
  (0x270000001b0004000000200400, 0x13000d0000002c00000000002200000000),
  (0xb0000002d0000000f000d000000200400, 0x230000002600000000002400000000),
  (0x2400000029000000020015000000200400, 0x2d0000001900000000002700000000),
  (0x2d0000001b00000000001d000000200400, 0x2800000009000b0000002900000000),
  (0x2200000007000900000023000000200400, 0x150000000000170000002b00000000),
  (0x700040000001900000028000000200400, 0xf000000220000002c00000000),
  (0x1d000000260000002b000000200400, 0x1700000022000000290000002d00000000),
  (0x2b0000002c0000002d000000200400, 0x2b0000002c0000002d0000002d00000000)]

theorem tab_32_8_1024_ok : tabOk 32 8 1024 tab_32_8_1024 := by decide +kernel

def tab_32_8_2048 : List (Nat × Nat) := [
  (0x2b002b002c002c002d002d002d00200800, 0x0),
  (0x17001d002200260029002b002d00200800, 0x0),
  (0x4000f001900220028002c00200800, 0x700000000000000000000000000000000),
  (0x900170023002b00200800, 0x2200150007000000000000000000000000),
  (0xb001d002900200800, 0x2d0028001b000900000000000000000000),
  (0x15002700200800, 0x24002d0029001900020000000000000000),
  (0xd002400200800, 0xb0023002d0026000f0000000000000000),
  (0x1300000000000000000004002200200800, 0xd0027002c001b0000000000000000),
  (0x29000d0000000000000000001e00200800, 0x17002c00240004000000000000),
  (0x2c00230000000000000000001b00200800, 0x20026002b000d000000000000),
  (0x1b002d0013000000000000001700200800, 0x19002d0015000000000000),
  (0x280024000000000000001300200800, 0x2000000000009002c001d000000000000),
  (0x15002d000900000000000f00200800, 0x1e00000000000000270023000000000000),
  (0x2b001900000000000b00200800, 0x2d000400000000001e0028000000000000),
  (0x1e002600000000000700200800, 0x27001d000000000013002b000000000000),
  (0xb002c00000000000200200800, 0xf002b000000000007002d000000000000),
  (0xf00000000002c00070000000000200800, 0x2b000b00000000002d000200000000),
  (0x2700000000002600130000000000200800, 0x1d001e00000000002b000700000000),
  (0x2d000000000019001e0000000000200800, 0x4002b000000000028000b00000000),
  (0x1e00150000000900270000000000200800, 0x2d000000000023000f00000000),
  (0x2002800000000002c0000000000200800, 0x2400090000001d001300000000),
  (0x2d00000000002d0000000000200800, 0x1b00000013001900000015001700000000),
  (0x2300020000002b0000000000200800, 0x2c0000000000260000000d001b00000000),
  (0xd0017000000240000000000200800, 0x2900000000002c00000004001e00000000),
  (0x270000001b0004000000200800, 0x13000d0000002c00000000002200000000),
  (0xb0000002d0000000f000d000000200800, 0x230000002600000000002400000000),
  (0x2400000029000000020015000000200800, 0x2d0000001900000000002700000000),
  (0x2d0000001b00000000001d000000200800, 0x2800000009000b0000002900000000),
  (0x2200000007000900000023000000200800, 0x150000000000170000002b00000000),
  (0x700040000001900000028000000200800, 0xf000000220000002c00000000),
  (0x1d000000260000002b000000200800, 0x1700000022000000290000002d00000000),
  (0x2b0000002c0000002d000000200800, 0x2b0000002c0000002d0000002d00000000)]

theorem tab_32_8_2048_ok : tabOk 32 8 2048 tab_32_8_2048 := by decide +kernel

def tab_32_16_16 : List (Nat × Nat) := [
  (0x22002300240026002700280029002a002b002b002c002c002d002d002d00200010, 0x0),
  (0x4000b00110017001d002200260029002b002d00200010, 0x1b0015000f00090002000000000000000000000000000000000000000000000000),
  (0x4000f001900220028002c00200010, 0x27002b002d002c00290023001b0011000700000000000000000000000000000000),
  (0x130004000000000000000000000000000000000000000900170023002b00200010, 0xb00190024002b002d002a002200150007000000000000000000000000),
  (0x2b002d0027001900070000000000000000000000000000000b001d002900200010, 0xd001e002a002d0028001b000900000000000000000000),
  (0xd0022002c002b001d00070000000000000000000000000015002700200010, 0xb00000000000000000000000000110024002d0029001900020000000000000000),
  (0x90022002d0027001100000000000000000000000d002400200010, 0x2d0028001300000000000000000000000b0023002d0026000f0000000000000000),
  (0x200000000000000000015002b002a001300000000000000000004002200200010, 0x1d002d0026000b0000000000000000000d0027002c001b0000000000000000),
  (0x2d001d0000000000000000000f002a0029000d0000000000000000001e00200010, 0x70026002c001500000000000000000017002c00240004000000000000),
  (0x70028002900090000000000000011002c00230000000000000000001b00200010, 0x1e002d001700000000000000020026002b000d000000000000),
  (0x1e002c000f000000000000001b002d0013000000000000001700200010, 0x2c000d000000000000001d002d00110000000000000019002d0015000000000000),
  (0x19002d000d00000000000000280024000000000000001300200010, 0xf002d00170000000000000022002a0002000000000009002c001d000000000000),
  (0x29000000000000001b002b0002000000000015002d000900000000000f00200010, 0x4002c0019000000000000002a001e00000000000000270023000000000000),
  (0x17002b00000000000000230024000000000000002b001900000000000b00200010, 0x2002c0013000000000011002d000400000000001e0028000000000000),
  (0x15002b000000000000002c001100000000001e002600000000000700200010, 0x24000000000009002d0004000000000027001d000000000013002b000000000000),
  (0x1b0026000000000013002a00000000000b002c00000000000200200010, 0x1e0023000000000017002800000000000f002b000000000007002d000000000000),
  (0x1e000000000026001700000000002a000f00000000002c00070000000000200010, 0x23001b000000000028001300000000002b000b00000000002d000200000000),
  (0x24001500000000002d000000000011002700000000002600130000000000200010, 0x2b000900000004002c00000000001d001e00000000002b000700000000),
  (0x2b000200000013002300000000002d000000000019001e0000000000200010, 0x1700000000002c000000000024001100000004002b000000000028000b00000000),
  (0x2c00000000002b00000000001e00150000000900270000000000200010, 0x29000400000019001b00000002002a00000000002d000000000023000f00000000),
  (0xf0000001700190000000d002200000002002800000000002c0000000000200010, 0x2d00000000002d00000000002a00000000002400090000001d001300000000),
  (0x2c00000000002c00000000002d00000000002d00000000002d0000000000200010, 0xd001e0000000f001d00000011001b00000013001900000015001700000000),
  (0x2800000009001e0000001700110000002300020000002b0000000000200010, 0x70000002900000000002d00000000002c0000000000260000000d001b00000000),
  (0x1d00070000002c00000000002a0000000d0017000000240000000000200010, 0x2d00000000002600000015000f0000002900000000002c00000004001e00000000),
  (0x2d0000000b00150000002a0000000000270000001b0004000000200010, 0x2001d0000002600000000002b00000013000d0000002c00000000002200000000),
  (0x2d0000001300090000002d00000011000b0000002d0000000f000d000000200010, 0x28000000000022000000270000000000230000002600000000002400000000),
  (0xb000d0000002c0000001d00000000002400000029000000020015000000200010, 0x220000002b0000000700110000002d0000001900000000002700000000),
  (0x2d0000001900000000001e0000002d0000001b00000000001d000000200010, 0x2b0000002700000007000d0000002a0000002800000009000b0000002900000000),
  (0x4000b000000240000002d0000002200000007000900000023000000200010, 0x130000000000190000002b0000002a000000150000000000170000002b00000000),
  (0x270000002d000000290000001b0000000700040000001900000028000000200010, 0x2b0000002c000000230000001100000000000f000000220000002c00000000),
  (0x1b0000000f000000020004000000110000001d000000260000002b000000200010, 0x150000000900000000000b0000001700000022000000290000002d00000000),
  (0x2300000026000000280000002a0000002b0000002c0000002d000000200010, 0x220000002400000027000000290000002b0000002c0000002d0000002d00000000)]

theorem tab_32_16_16_ok : tabOk 32 16 16 tab_32_16_16 := by decide +kernel

def tab_32_16_1024 : List (Nat × Nat) := [
  (0x22002300240026002700280029002a002b002b002c002c002d002d002d00200400, 0x0),
  (0x4000b00110017001d002200260029002b002d00200400, 0x1b0015000f00090002000000000000000000000000000000000000000000000000),
  (0x4000f001900220028002c00200400, 0x27002b002d002c00290023001b0011000700000000000000000000000000000000),
  (0x130004000000000000000000000000000000000000000900170023002b00200400, 0xb00190024002b002d002a002200150007000000000000000000000000),
  (0x2b002d0027001900070000000000000000000000000000000b001d002900200400, 0xd001e002a002d0028001b000900000000000000000000),
  (0xd0022002c002b001d00070000000000000000000000000015002700200400, 0xb00000000000000000000000000110024002d0029001900020000000000000000),
  (0x90022002d0027001100000000000000000000000d002400200400, 0x2d0028001300000000000000000000000b0023002d0026000f0000000000000000),
  (0x200000000000000000015002b002a001300000000000000000004002200200400, 0x1d002d0026000b0000000000000000000d0027002c001b0000000000000000),
  (0x2d001d0000000000000000000f002a0029000d0000000000000000001e00200400, 0x70026002c001500000000000000000017002c00240004000000000000),
  (0x70028002900090000000000000011002c00230000000000000000001b00200400, 0x1e002d001700000000000000020026002b000d000000000000),
  (0x1e002c000f000000000000001b002d0013000000000000001700200400, 0x2c000d000000000000001d002d00110000000000000019002d0015000000000000),
  (0x19002d000d00000000000000280024000000000000001300200400, 0xf002d00170000000000000022002a0002000000000009002c001d000000000000),
  (0x29000000000000001b002b0002000000000015002d000900000000000f00200400, 0x4002c0019000000000000002a001e00000000000000270023000000000000),
  (0x17002b00000000000000230024000000000000002b001900000000000b00200400, 0x2002c0013000000000011002d000400000000001e0028000000000000),
  (0x15002b000000000000002c001100000000001e002600000000000700200400, 0x24000000000009002d0004000000000027001d000000000013002b000000000000),
  (0x1b0026000000000013002a00000000000b002c00000000000200200400, 0x1e0023000000000017002800000000000f002b000000000007002d000000000000),
  (0x1e000000000026001700000000002a000f00000000002c00070000000000200400, 0x23001b000000000028001300000000002b000b00000000002d000200000000),
  (0x24001500000000002d000000000011002700000000002600130000000000200400, 0x2b000900000004002c00000000001d001e00000000002b000700000000),
  (0x2b000200000013002300000000002d000000000019001e0000000000200400, 0x1700000000002c000000000024001100000004002b000000000028000b00000000),
  (0x2c00000000002b00000000001e00150000000900270000000000200400, 0x29000400000019001b00000002002a00000000002d000000000023000f00000000),
  (0xf0000001700190000000d002200000002002800000000002c0000000000200400, 0x2d00000000002d00000000002a00000000002400090000001d001300000000),
  (0x2c00000000002c00000000002d00000000002d00000000002d0000000000200400, 0xd001e0000000f001d00000011001b00000013001900000015001700000000),
  (0x2800000009001e0000001700110000002300020000002b0000000000200400, 0x70000002900000000002d00000000002c0000000000260000000d001b00000000),
  (0x1d00070000002c00000000002a0000000d0017000000240000000000200400, 0x2d00000000002600000015000f0000002900000000002c00000004001e00000000),
  (0x2d0000000b00150000002a0000000000270000001b0004000000200400, 0x2001d0000002600000000002b00000013000d0000002c00000000002200000000),
  (0x2d0000001300090000002d00000011000b0000002d0000000f000d000000200400, 0x28000000000022000000270000000000230000002600000000002400000000),
  (0xb000d0000002c0000001d00000000002400000029000000020015000000200400, 0x220000002b0000000700110000002d0000001900000000002700000000),
  (0x2d0000001900000000001e0000002d0000001b00000000001d000000200400, 0x2b0000002700000007000d0000002a0000002800000009000b0000002900000000),
  (0x4000b000000240000002d0000002200000007000900000023000000200400, 0x130000000000190000002b0000002a000000150000000000170000002b00000000),
  (0x270000002d000000290000001b0000000700040000001900000028000000200400, 0x2b0000002c000000230000001100000000000f000000220000002c00000000),
  (0x1b0000000f000000020004000000110000001d000000260000002b000000200400, 0x150000000900000000000b0000001700000022000000290000002d00000000),
  (0x2300000026000000280000002a0000002b0000002c0000002d000000200400, 0x220000002400000027000000290000002b0000002c0000002d0000002d00000000)]

theorem tab_32_16_1024_ok : tabOk 32 16 1024 tab_32_16_1024 := by decide +kernel

def tab_32_16_2048 : List (Nat × Nat) := [
  (0x22002300240026002700280029002a002b002b002c002c002d002d002d00200800, 0x0),
  (0x4000b00110017001d002200260029002b002d00200800, 0x1b0015000f00090002000000000000000000000000000000000000000000000000),
  (0x4000f001900220028002c00200800, 0x27002b002d002c00290023001b0011000700000000000000000000000000000000),
  (0x130004000000000000000000000000000000000000000900170023002b00200800, 0xb00190024002b002d002a002200150007000000000000000000000000),
  (0x2b002d0027001900070000000000000000000000000000000b001d002900200800, 0xd001e002a002d0028001b000900000000000000000000),
  (0xd0022002c002b001d00070000000000000000000000000015002700200800, 0xb00000000000000000000000000110024002d0029001900020000000000000000),
  (0x90022002d0027001100000000000000000000000d002400200800, 0x2d0028001300000000000000000000000b0023002d0026000f0000000000000000),
  (0x200000000000000000015002b002a001300000000000000000004002200200800, 0x1d002d0026000b0000000000000000000d0027002c001b0000000000000000),
  (0x2d001d0000000000000000000f002a0029000d0000000000000000001e00200800, 0x70026002c001500000000000000000017002c00240004000000000000),
  (0x70028002900090000000000000011002c00230000000000000000001b00200800, 0x1e002d001700000000000000020026002b000d000000000000),
  (0x1e002c000f000000000000001b002d0013000000000000001700200800, 0x2c000d000000000000001d002d00110000000000000019002d0015000000000000),
  (0x19002d000d00000000000000280024000000000000001300200800, 0xf002d00170000000000000022002a0002000000000009002c001d000000000000),
  (0x29000000000000001b002b0002000000000015002d000900000000000f00200800, 0x4002c0019000000000000002a001e00000000000000270023000000000000),
  (0x17002b00000000000000230024000000000000002b001900000000000b00200800, 0x2002c0013000000000011002d000400000000001e0028000000000000),
  (0x15002b000000000000002c001100000000001e002600000000000700200800, 0x24000000000009002d0004000000000027001d000000000013002b000000000000),
  (0x1b0026000000000013002a00000000000b002c00000000000200200800, 0x1e0023000000000017002800000000000f002b000000000007002d000000000000),
  (0x1e000000000026001700000000002a000f00000000002c00070000000000200800, 0x23001b000000000028001300000000002b000b00000000002d000200000000),
  (0x24001500000000002d000000000011002700000000002600130000000000200800, 0x2b000900000004002c00000000001d001e00000000002b000700000000),
  (0x2b000200000013002300000000002d000000000019001e0000000000200800, 0x1700000000002c000000000024001100000004002b000000000028000b00000000),
  (0x2c00000000002b00000000001e00150000000900270000000000200800, 0x29000400000019001b00000002002a00000000002d000000000023000f00000000),
  (0xf0000001700190000000d002200000002002800000000002c0000000000200800, 0x2d00000000002d00000000002a00000000002400090000001d001300000000),
  (0x2c00000000002c00000000002d00000000002d00000000002d0000000000200800, 0xd001e0000000f001d00000011001b00000013001900000015001700000000),
  (0x2800000009001e0000001700110000002300020000002b0000000000200800, 0x70000002900000000002d00000000002c0000000000260000000d001b00000000),
  (0x1d00070000002c00000000002a0000000d0017000000240000000000200800, 0x2d00000000002600000015000f0000002900000000002c00000004001e00000000),
  (0x2d0000000b00150000002a0000000000270000001b0004000000200800, 0x2001d0000002600000000002b00000013000d0000002c00000000002200000000),
  (0x2d0000001300090000002d00000011000b0000002d0000000f000d000000200800, 0x28000000000022000000270000000000230000002600000000002400000000),
  (0xb000d0000002c0000001d00000000002400000029000000020015000000200800, 0x220000002b0000000700110000002d0000001900000000002700000000),
  (0x2d0000001900000000001e0000002d0000001b00000000001d000000200800, 0x2b0000002700000007000d0000002a0000002800000009000b0000002900000000),
  (0x4000b000000240000002d0000002200000007000900000023000000200800, 0x130000000000190000002b0000002a000000150000000000170000002b00000000),
  (0x270000002d000000290000001b0000000700040000001900000028000000200800, 0x2b0000002c000000230000001100000000000f000000220000002c00000000),
  (0x1b0000000f000000020004000000110000001d000000260000002b000000200800, 0x150000000900000000000b0000001700000022000000290000002d00000000),
  (0x2300000026000000280000002a0000002b0000002c0000002d000000200800, 0x220000002400000027000000290000002b0000002c0000002d0000002d00000000)]

theorem tab_32_16_2048_ok : tabOk 32 16 2048 tab_32_16_2048 := by decide +kernel

def tab_32_32_16 : List (Nat × Nat) := [
  (0x2000400070009000b000d000f00110013001500170019001b001d001e00200022002300240026002700280029002a002b002b002c002c002d002d002d00200010, 0x0),
  (0x4000b00110017001d002200260029002b002d00200010, 0x7000d00130019001e00230027002a002c002d002d002c002b002800240020001b0015000f00090002000000000000000000000000000000000000000000000000),
  (0xb0015001e0026002b002d002d002a0024001d0013000900000000000000000000000000000000000000000000000000000004000f001900220028002c00200010, 0x2000d001700200027002b002d002c00290023001b0011000700000000000000000000000000000000),
  (0xd001b0026002c002d0029002000130004000000000000000000000000000000000000000900170023002b00200010, 0xf001d0027002c002d0028001e00110002000000000000000000000000000000000000000b00190024002b002d002a002200150007000000000000000000000000),
  (0x130023002c002c0024001500020000000000000000000000000000000f0020002b002d0027001900070000000000000000000000000000000b001d002900200010, 0x110022002b002d0026001700040000000000000000000000000000000d001e002a002d0028001b000900000000000000000000),
  (0x4001b002a002d0023000f000000000000000000000000000d0022002c002b001d00070000000000000000000000000015002700200010, 0x170028002d002600130000000000000000000000000009001e002b002c0020000b00000000000000000000000000110024002d0029001900020000000000000000),
  (0x1b002b002b0019000000000000000000000004001e002c002900150000000000000000000000090022002d0027001100000000000000000000000d002400200010, 0x2001d002c002a00170000000000000000000000070020002d0028001300000000000000000000000b0023002d0026000f0000000000000000),
  (0x17002b00290011000000000000000000070023002d0020000200000000000000000015002b002a001300000000000000000004002200200010, 0x1e002d002400090000000000000000000f0028002c001900000000000000000000001d002d0026000b0000000000000000000d0027002c001b0000000000000000),
  (0x22002d001b00000000000000000011002b0028000b00000000000000000020002d001d0000000000000000000f002a0029000d0000000000000000001e00200010, 0x90027002b001300000000000000000019002d0023000200000000000000070026002c001500000000000000000017002c00240004000000000000),
  (0x19002d001d00000000000000000022002c001300000000000000070028002900090000000000000011002c00230000000000000000001b00200010, 0x24002b000f000000000000000b002a002700040000000000000015002d00200000000000000000001e002d001700000000000000020026002b000d000000000000),
  (0x27002800020000000000000024002a00070000000000000022002b000b000000000000001e002c000f000000000000001b002d0013000000000000001700200010, 0x26002900040000000000000023002b00090000000000000020002c000d000000000000001d002d00110000000000000019002d0015000000000000),
  (0xb002c001b000000000000001e002b0007000000000004002b00200000000000000019002d000d00000000000000280024000000000000001300200010, 0x2900230000000000000015002d001100000000000000260027000000000000000f002d00170000000000000022002a0002000000000009002c001d000000000000),
  (0x2b001d000000000000002800220000000000000024002600000000000000200029000000000000001b002b0002000000000015002d000900000000000f00200010, 0x17002c0007000000000011002d000d00000000000b002d0013000000000004002c0019000000000000002a001e00000000000000270023000000000000),
  (0x220026000000000000002a001b000000000009002d000d000000000017002b00000000000000230024000000000000002b001900000000000b00200010, 0x2c001500000000000f002d000700000000001d002900000000000000270020000000000002002c0013000000000011002d000400000000001e0028000000000000),
  (0x2d000d000000000022002300000000000b002d0002000000000028001b000000000015002b000000000000002c001100000000001e002600000000000700200010, 0x290019000000000017002a000000000000002c000f0000000000200024000000000009002d0004000000000027001d000000000013002b000000000000),
  (0x2d000900000000002b00110000000000270019000000000022002000000000001b0026000000000013002a00000000000b002c00000000000200200010, 0x2d000400000000002c000d0000000000290015000000000024001d00000000001e0023000000000017002800000000000f002b000000000007002d000000000000),
  (0x2d000000000009002c00000000001100290000000000190024000000000020001e000000000026001700000000002a000f00000000002c00070000000000200010, 0x4002d00000000000d002b000000000015002700000000001d0022000000000023001b000000000028001300000000002b000b00000000002d000200000000),
  (0xd0029000000000023001700000000002d00000000000f0028000000000024001500000000002d000000000011002700000000002600130000000000200010, 0x2d000000000019002200000000002a000b00000002002c00000000001b002000000000002b000900000004002c00000000001d001e00000000002b000700000000),
  (0x2c000000000026000f00000007002a00000000002900090000000d002700000000002b000200000013002300000000002d000000000019001e0000000000200010, 0x15002200000000002d00000000001b001d00000000002d000000000020001700000000002c000000000024001100000004002b000000000028000b00000000),
  (0x1d001700000007002800000000002d000000000026000b00000013002000000000002c00000000002b00000000001e00150000000900270000000000200010, 0x2b00000000002c00000000002200110000000d002400000000002d000000000029000400000019001b00000002002a00000000002d000000000023000f00000000),
  (0x2900000000002c00000000002d00000000002b000000000027000400000020000f0000001700190000000d002200000002002800000000002c0000000000200010, 0x23000b0000001b001500000011001e00000007002600000000002b00000000002d00000000002d00000000002a00000000002400090000001d001300000000),
  (0x2800000000002900000000002a00000000002b00000000002b00000000002c00000000002c00000000002d00000000002d00000000002d0000000000200010, 0x270000000200260000000400240000000700230000000900220000000b00200000000d001e0000000f001d00000011001b00000013001900000015001700000000),
  (0x240000000f00190000001d000b0000002700000000002c00000000002d00000000002800000009001e0000001700110000002300020000002b0000000000200010, 0x2b00000000002d00000000002a0000000400220000001300150000002000070000002900000000002d00000000002c0000000000260000000d001b00000000),
  (0x2d0000000000270000001300110000002800000000002d0000000200200000001d00070000002c00000000002a0000000d0017000000240000000000200010, 0x220000001b00090000002b00000000002b0000000b00190000002300000000002d00000000002600000015000f0000002900000000002c00000004001e00000000),
  (0x1e0000002400000000002b00000011000f0000002c0000000000230000002000000000002d0000000b00150000002a0000000000270000001b0004000000200010, 0x2d000000090017000000290000000000280000001900070000002d00000002001d0000002600000000002b00000013000d0000002c00000000002200000000),
  (0x2b0000001900020000002c0000001700040000002c0000001500070000002d0000001300090000002d00000011000b0000002d0000000f000d000000200010, 0x1b0000002b00000000001d0000002a00000000001e0000002900000000002000000028000000000022000000270000000000230000002600000000002400000000),
  (0x170000002d0000001300040000002a0000002300000000001e0000002c0000000b000d0000002c0000001d00000000002400000029000000020015000000200010, 0x280000002600000000001b0000002d0000000f00090000002b000000200000000000220000002b0000000700110000002d0000001900000000002700000000),
  (0x230000002c000000150000000000220000002d000000170000000000200000002d0000001900000000001e0000002d0000001b00000000001d000000200010, 0x130000002c000000240000000200110000002b0000002600000004000f0000002b0000002700000007000d0000002a0000002800000009000b0000002900000000),
  (0xf000000270000002d0000001e00000002000d000000260000002d0000002000000004000b000000240000002d0000002200000007000900000023000000200010, 0x1d0000002c000000280000001100000000001b0000002c00000029000000130000000000190000002b0000002a000000150000000000170000002b00000000),
  (0x15000000260000002d0000002a0000001d00000009000200000017000000270000002d000000290000001b0000000700040000001900000028000000200010, 0xb0000001e0000002b0000002d000000240000001300000000000d000000200000002b0000002c000000230000001100000000000f000000220000002c00000000),
  (0x7000000130000001e000000270000002c0000002d0000002b000000240000001b0000000f000000020004000000110000001d000000260000002b000000200010, 0xd00000019000000230000002a0000002d0000002c0000002800000020000000150000000900000000000b0000001700000022000000290000002d00000000),
  (0x4000000090000000d0000001100000015000000190000001d000000200000002300000026000000280000002a0000002b0000002c0000002d000000200010, 0x2000000070000000b0000000f00000013000000170000001b0000001e000000220000002400000027000000290000002b0000002c0000002d0000002d00000000)]

theorem tab_32_32_16_ok : tabOk 32 32 16 tab_32_32_16 := by decide +kernel

def tab_32_32_1024 : List (Nat × Nat) := [
  (0x2000400070009000b000d000f00110013001500170019001b001d001e00200022002300240026002700280029002a002b002b002c002c002d002d002d00200400, 0x0),
  (0x4000b00110017001d002200260029002b002d00200400, 0x7000d00130019001e00230027002a002c002d002d002c002b002800240020001b0015000f00090002000000000000000000000000000000000000000000000000),
  (0xb0015001e0026002b002d002d002a0024001d0013000900000000000000000000000000000000000000000000000000000004000f001900220028002c00200400, 0x2000d001700200027002b002d002c00290023001b0011000700000000000000000000000000000000),
  (0xd001b0026002c002d0029002000130004000000000000000000000000000000000000000900170023002b00200400, 0xf001d0027002c002d0028001e00110002000000000000000000000000000000000000000b00190024002b002d002a002200150007000000000000000000000000),
  (0x130023002c002c0024001500020000000000000000000000000000000f0020002b002d0027001900070000000000000000000000000000000b001d002900200400, 0x110022002b002d0026001700040000000000000000000000000000000d001e002a002d0028001b000900000000000000000000),
  (0x4001b002a002d0023000f000000000000000000000000000d0022002c002b001d00070000000000000000000000000015002700200400, 0x170028002d002600130000000000000000000000000009001e002b002c0020000b00000000000000000000000000110024002d0029001900020000000000000000),
  (0x1b002b002b0019000000000000000000000004001e002c002900150000000000000000000000090022002d0027001100000000000000000000000d002400200400, 0x2001d002c002a00170000000000000000000000070020002d0028001300000000000000000000000b0023002d0026000f0000000000000000),
  (0x17002b00290011000000000000000000070023002d0020000200000000000000000015002b002a001300000000000000000004002200200400, 0x1e002d002400090000000000000000000f0028002c001900000000000000000000001d002d0026000b0000000000000000000d0027002c001b0000000000000000),
  (0x22002d001b00000000000000000011002b0028000b00000000000000000020002d001d0000000000000000000f002a0029000d0000000000000000001e00200400, 0x90027002b001300000000000000000019002d0023000200000000000000070026002c001500000000000000000017002c00240004000000000000),
  (0x19002d001d00000000000000000022002c001300000000000000070028002900090000000000000011002c00230000000000000000001b00200400, 0x24002b000f000000000000000b002a002700040000000000000015002d00200000000000000000001e002d001700000000000000020026002b000d000000000000),
  (0x27002800020000000000000024002a00070000000000000022002b000b000000000000001e002c000f000000000000001b002d0013000000000000001700200400, 0x26002900040000000000000023002b00090000000000000020002c000d000000000000001d002d00110000000000000019002d0015000000000000),
  (0xb002c001b000000000000001e002b0007000000000004002b00200000000000000019002d000d00000000000000280024000000000000001300200400, 0x2900230000000000000015002d001100000000000000260027000000000000000f002d00170000000000000022002a0002000000000009002c001d000000000000),
  (0x2b001d000000000000002800220000000000000024002600000000000000200029000000000000001b002b0002000000000015002d000900000000000f00200400, 0x17002c0007000000000011002d000d00000000000b002d0013000000000004002c0019000000000000002a001e00000000000000270023000000000000),
  (0x220026000000000000002a001b000000000009002d000d000000000017002b00000000000000230024000000000000002b001900000000000b00200400, 0x2c001500000000000f002d000700000000001d002900000000000000270020000000000002002c0013000000000011002d000400000000001e0028000000000000),
  (0x2d000d000000000022002300000000000b002d0002000000000028001b000000000015002b000000000000002c001100000000001e002600000000000700200400, 0x290019000000000017002a000000000000002c000f0000000000200024000000000009002d0004000000000027001d000000000013002b000000000000),
  (0x2d000900000000002b00110000000000270019000000000022002000000000001b0026000000000013002a00000000000b002c00000000000200200400, 0x2d000400000000002c000d0000000000290015000000000024001d00000000001e0023000000000017002800000000000f002b000000000007002d000000000000),
  (0x2d000000000009002c00000000001100290000000000190024000000000020001e000000000026001700000000002a000f00000000002c00070000000000200400, 0x4002d00000000000d002b000000000015002700000000001d0022000000000023001b000000000028001300000000002b000b00000000002d000200000000),
  (0xd0029000000000023001700000000002d00000000000f0028000000000024001500000000002d000000000011002700000000002600130000000000200400, 0x2d000000000019002200000000002a000b00000002002c00000000001b002000000000002b000900000004002c00000000001d001e00000000002b000700000000),
  (0x2c000000000026000f00000007002a00000000002900090000000d002700000000002b000200000013002300000000002d000000000019001e0000000000200400, 0x15002200000000002d00000000001b001d00000000002d000000000020001700000000002c000000000024001100000004002b000000000028000b00000000),
  (0x1d001700000007002800000000002d000000000026000b00000013002000000000002c00000000002b00000000001e00150000000900270000000000200400, 0x2b00000000002c00000000002200110000000d002400000000002d000000000029000400000019001b00000002002a00000000002d000000000023000f00000000),
  (0x2900000000002c00000000002d00000000002b000000000027000400000020000f0000001700190000000d002200000002002800000000002c0000000000200400, 0x23000b0000001b001500000011001e00000007002600000000002b00000000002d00000000002d00000000002a00000000002400090000001d001300000000),
  (0x2800000000002900000000002a00000000002b00000000002b00000000002c00000000002c00000000002d00000000002d00000000002d0000000000200400, 0x270000000200260000000400240000000700230000000900220000000b00200000000d001e0000000f001d00000011001b00000013001900000015001700000000),
  (0x240000000f00190000001d000b0000002700000000002c00000000002d00000000002800000009001e0000001700110000002300020000002b0000000000200400, 0x2b00000000002d00000000002a0000000400220000001300150000002000070000002900000000002d00000000002c0000000000260000000d001b00000000),
  (0x2d0000000000270000001300110000002800000000002d0000000200200000001d00070000002c00000000002a0000000d0017000000240000000000200400, 0x220000001b00090000002b00000000002b0000000b00190000002300000000002d00000000002600000015000f0000002900000000002c00000004001e00000000),
  (0x1e0000002400000000002b00000011000f0000002c0000000000230000002000000000002d0000000b00150000002a0000000000270000001b0004000000200400, 0x2d000000090017000000290000000000280000001900070000002d00000002001d0000002600000000002b00000013000d0000002c00000000002200000000),
  (0x2b0000001900020000002c0000001700040000002c0000001500070000002d0000001300090000002d00000011000b0000002d0000000f000d000000200400, 0x1b0000002b00000000001d0000002a00000000001e0000002900000000002000000028000000000022000000270000000000230000002600000000002400000000),
  (0x170000002d0000001300040000002a0000002300000000001e0000002c0000000b000d0000002c0000001d00000000002400000029000000020015000000200400, 0x280000002600000000001b0000002d0000000f00090000002b000000200000000000220000002b0000000700110000002d0000001900000000002700000000),
  (0x230000002c000000150000000000220000002d000000170000000000200000002d0000001900000000001e0000002d0000001b00000000001d000000200400, 0x130000002c000000240000000200110000002b0000002600000004000f0000002b0000002700000007000d0000002a0000002800000009000b0000002900000000),
  (0xf000000270000002d0000001e00000002000d000000260000002d0000002000000004000b000000240000002d0000002200000007000900000023000000200400, 0x1d0000002c000000280000001100000000001b0000002c00000029000000130000000000190000002b0000002a000000150000000000170000002b00000000),
  (0x15000000260000002d0000002a0000001d00000009000200000017000000270000002d000000290000001b0000000700040000001900000028000000200400, 0xb0000001e0000002b0000002d000000240000001300000000000d000000200000002b0000002c000000230000001100000000000f000000220000002c00000000),
  (0x7000000130000001e000000270000002c0000002d0000002b000000240000001b0000000f000000020004000000110000001d000000260000002b000000200400, 0xd00000019000000230000002a0000002d0000002c0000002800000020000000150000000900000000000b0000001700000022000000290000002d00000000),
  (0x4000000090000000d0000001100000015000000190000001d000000200000002300000026000000280000002a0000002b0000002c0000002d000000200400, 0x2000000070000000b0000000f00000013000000170000001b0000001e000000220000002400000027000000290000002b0000002c0000002d0000002d00000000)]

theorem tab_32_32_1024_ok : tabOk 32 32 1024 tab_32_32_1024 := by decide +kernel

def tab_32_32_2048 : List (Nat × Nat) := [
  (0x2000400070009000b000d000f00110013001500170019001b001d001e00200022002300240026002700280029002a002b002b002c002c002d002d002d00200800, 0x0),
  (0x4000b00110017001d002200260029002b002d00200800, 0x7000d00130019001e00230027002a002c002d002d002c002b002800240020001b0015000f00090002000000000000000000000000000000000000000000000000),
  (0xb0015001e0026002b002d002d002a0024001d0013000900000000000000000000000000000000000000000000000000000004000f001900220028002c00200800, 0x2000d001700200027002b002d002c00290023001b0011000700000000000000000000000000000000),
  (0xd001b0026002c002d0029002000130004000000000000000000000000000000000000000900170023002b00200800, 0xf001d0027002c002d0028001e00110002000000000000000000000000000000000000000b00190024002b002d002a002200150007000000000000000000000000),
  (0x130023002c002c0024001500020000000000000000000000000000000f0020002b002d0027001900070000000000000000000000000000000b001d002900200800, 0x110022002b002d0026001700040000000000000000000000000000000d001e002a002d0028001b000900000000000000000000),
  (0x4001b002a002d0023000f000000000000000000000000000d0022002c002b001d00070000000000000000000000000015002700200800, 0x170028002d002600130000000000000000000000000009001e002b002c0020000b00000000000000000000000000110024002d0029001900020000000000000000),
  (0x1b002b002b0019000000000000000000000004001e002c002900150000000000000000000000090022002d0027001100000000000000000000000d002400200800, 0x2001d002c002a00170000000000000000000000070020002d0028001300000000000000000000000b0023002d0026000f0000000000000000),
  (0x17002b00290011000000000000000000070023002d0020000200000000000000000015002b002a001300000000000000000004002200200800, 0x1e002d002400090000000000000000000f0028002c001900000000000000000000001d002d0026000b0000000000000000000d0027002c001b0000000000000000),
  (0x22002d001b00000000000000000011002b0028000b00000000000000000020002d001d0000000000000000000f002a0029000d0000000000000000001e00200800, 0x90027002b001300000000000000000019002d0023000200000000000000070026002c001500000000000000000017002c00240004000000000000),
  (0x19002d001d00000000000000000022002c001300000000000000070028002900090000000000000011002c00230000000000000000001b00200800, 0x24002b000f000000000000000b002a002700040000000000000015002d00200000000000000000001e002d001700000000000000020026002b000d000000000000),
  (0x27002800020000000000000024002a00070000000000000022002b000b000000000000001e002c000f000000000000001b002d0013000000000000001700200800, 0x26002900040000000000000023002b00090000000000000020002c000d000000000000001d002d00110000000000000019002d0015000000000000),
  (0xb002c001b000000000000001e002b0007000000000004002b00200000000000000019002d000d00000000000000280024000000000000001300200800, 0x2900230000000000000015002d001100000000000000260027000000000000000f002d00170000000000000022002a0002000000000009002c001d000000000000),
  (0x2b001d000000000000002800220000000000000024002600000000000000200029000000000000001b002b0002000000000015002d000900000000000f00200800, 0x17002c0007000000000011002d000d00000000000b002d0013000000000004002c0019000000000000002a001e00000000000000270023000000000000),
  (0x220026000000000000002a001b000000000009002d000d000000000017002b00000000000000230024000000000000002b001900000000000b00200800, 0x2c001500000000000f002d000700000000001d002900000000000000270020000000000002002c0013000000000011002d000400000000001e0028000000000000),
  (0x2d000d000000000022002300000000000b002d0002000000000028001b000000000015002b000000000000002c001100000000001e002600000000000700200800, 0x290019000000000017002a000000000000002c000f0000000000200024000000000009002d0004000000000027001d000000000013002b000000000000),
  (0x2d000900000000002b00110000000000270019000000000022002000000000001b0026000000000013002a00000000000b002c00000000000200200800, 0x2d000400000000002c000d0000000000290015000000000024001d00000000001e0023000000000017002800000000000f002b000000000007002d000000000000),
  (0x2d000000000009002c00000000001100290000000000190024000000000020001e000000000026001700000000002a000f00000000002c00070000000000200800, 0x4002d00000000000d002b000000000015002700000000001d0022000000000023001b000000000028001300000000002b000b00000000002d000200000000),
  (0xd0029000000000023001700000000002d00000000000f0028000000000024001500000000002d000000000011002700000000002600130000000000200800, 0x2d000000000019002200000000002a000b00000002002c00000000001b002000000000002b000900000004002c00000000001d001e00000000002b000700000000),
  (0x2c000000000026000f00000007002a00000000002900090000000d002700000000002b000200000013002300000000002d000000000019001e0000000000200800, 0x15002200000000002d00000000001b001d00000000002d000000000020001700000000002c000000000024001100000004002b000000000028000b00000000),
  (0x1d001700000007002800000000002d000000000026000b00000013002000000000002c00000000002b00000000001e00150000000900270000000000200800, 0x2b00000000002c00000000002200110000000d002400000000002d000000000029000400000019001b00000002002a00000000002d000000000023000f00000000),
  (0x2900000000002c00000000002d00000000002b000000000027000400000020000f0000001700190000000d002200000002002800000000002c0000000000200800, 0x23000b0000001b001500000011001e00000007002600000000002b00000000002d00000000002d00000000002a00000000002400090000001d001300000000),
  (0x2800000000002900000000002a00000000002b00000000002b00000000002c00000000002c00000000002d00000000002d00000000002d0000000000200800, 0x270000000200260000000400240000000700230000000900220000000b00200000000d001e0000000f001d00000011001b00000013001900000015001700000000),
  (0x240000000f00190000001d000b0000002700000000002c00000000002d00000000002800000009001e0000001700110000002300020000002b0000000000200800, 0x2b00000000002d00000000002a0000000400220000001300150000002000070000002900000000002d00000000002c0000000000260000000d001b00000000),
  (0x2d0000000000270000001300110000002800000000002d0000000200200000001d00070000002c00000000002a0000000d0017000000240000000000200800, 0x220000001b00090000002b00000000002b0000000b00190000002300000000002d00000000002600000015000f0000002900000000002c00000004001e00000000),
  (0x1e0000002400000000002b00000011000f0000002c0000000000230000002000000000002d0000000b00150000002a0000000000270000001b0004000000200800, 0x2d000000090017000000290000000000280000001900070000002d00000002001d0000002600000000002b00000013000d0000002c00000000002200000000),
  (0x2b0000001900020000002c0000001700040000002c0000001500070000002d0000001300090000002d00000011000b0000002d0000000f000d000000200800, 0x1b0000002b00000000001d0000002a00000000001e0000002900000000002000000028000000000022000000270000000000230000002600000000002400000000),
  (0x170000002d0000001300040000002a0000002300000000001e0000002c0000000b000d0000002c0000001d00000000002400000029000000020015000000200800, 0x280000002600000000001b0000002d0000000f00090000002b000000200000000000220000002b0000000700110000002d0000001900000000002700000000),
  (0x230000002c000000150000000000220000002d000000170000000000200000002d0000001900000000001e0000002d0000001b00000000001d000000200800, 0x130000002c000000240000000200110000002b0000002600000004000f0000002b0000002700000007000d0000002a0000002800000009000b0000002900000000),
  (0xf000000270000002d0000001e00000002000d000000260000002d0000002000000004000b000000240000002d0000002200000007000900000023000000200800, 0x1d0000002c000000280000001100000000001b0000002c00000029000000130000000000190000002b0000002a000000150000000000170000002b00000000),
  (0x15000000260000002d0000002a0000001d00000009000200000017000000270000002d000000290000001b0000000700040000001900000028000000200800, 0xb0000001e0000002b0000002d000000240000001300000000000d000000200000002b0000002c000000230000001100000000000f000000220000002c00000000),
  (0x7000000130000001e000000270000002c0000002d0000002b000000240000001b0000000f000000020004000000110000001d000000260000002b000000200800, 0xd00000019000000230000002a0000002d0000002c0000002800000020000000150000000900000000000b0000001700000022000000290000002d00000000),
  (0x4000000090000000d0000001100000015000000190000001d000000200000002300000026000000280000002a0000002b0000002c0000002d000000200800, 0x2000000070000000b0000000f00000013000000170000001b0000001e000000220000002400000027000000290000002b0000002c0000002d0000002d00000000)]

theorem tab_32_32_2048_ok : tabOk 32 32 2048 tab_32_32_2048 := by decide +kernel

end Davs2.Si
