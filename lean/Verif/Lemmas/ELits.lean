import Verif.ELane
import Verif.Model.Globals
import Mathlib.Tactic.NormNum
import Mathlib.Tactic.Positivity

/-
Generated (script esimp.py, not part of the build): the exact-real value of every bit-pattern literal and every
global constant vector used by the model.
-/

set_option linter.all false

namespace DXM
open Lane

theorem E.ofBits_eq (b : BitVec 32) : (Lane.ofBits b : E) = E.ofBits b := rfl

@[simp] theorem E.ofBits_00000000 : (Lane.ofBits 0x0#32 : E) = E.num 0 := by
  simp [E.ofBits_eq, E.ofBits, E.valQ]
@[simp] theorem E.ofBits_00000017 : (Lane.ofBits 0x17#32 : E) = E.num (23 / 2^149) := by
  simp [E.ofBits_eq, E.ofBits, E.valQ] <;> norm_num
@[simp] theorem E.ofBits_0000007F : (Lane.ofBits 0x7F#32 : E) = E.num (127 / 2^149) := by
  simp [E.ofBits_eq, E.ofBits, E.valQ] <;> norm_num
@[simp] theorem E.ofBits_00000080 : (Lane.ofBits 0x80#32 : E) = E.num (128 / 2^149) := by
  simp [E.ofBits_eq, E.ofBits, E.valQ] <;> norm_num
@[simp] theorem E.ofBits_000000FD : (Lane.ofBits 0xFD#32 : E) = E.num (253 / 2^149) := by
  simp [E.ofBits_eq, E.ofBits, E.valQ] <;> norm_num
@[simp] theorem E.ofBits_000000FF : (Lane.ofBits 0xFF#32 : E) = E.num (255 / 2^149) := by
  simp [E.ofBits_eq, E.ofBits, E.valQ] <;> norm_num
@[simp] theorem E.ofBits_00000200 : (Lane.ofBits 0x200#32 : E) = E.num (512 / 2^149) := by
  simp [E.ofBits_eq, E.ofBits, E.valQ] <;> norm_num
@[simp] theorem E.ofBits_000003FF : (Lane.ofBits 0x3FF#32 : E) = E.num (1023 / 2^149) := by
  simp [E.ofBits_eq, E.ofBits, E.valQ] <;> norm_num
@[simp] theorem E.ofBits_00008000 : (Lane.ofBits 0x8000#32 : E) = E.num (32768 / 2^149) := by
  simp [E.ofBits_eq, E.ofBits, E.valQ] <;> norm_num
@[simp] theorem E.ofBits_0000FF00 : (Lane.ofBits 0xFF00#32 : E) = E.num (65280 / 2^149) := by
  simp [E.ofBits_eq, E.ofBits, E.valQ] <;> norm_num
@[simp] theorem E.ofBits_0000FFFF : (Lane.ofBits 0xFFFF#32 : E) = E.num (65535 / 2^149) := by
  simp [E.ofBits_eq, E.ofBits, E.valQ] <;> norm_num
@[simp] theorem E.ofBits_00080000 : (Lane.ofBits 0x80000#32 : E) = E.num (524288 / 2^149) := by
  simp [E.ofBits_eq, E.ofBits, E.valQ] <;> norm_num
@[simp] theorem E.ofBits_000FFC00 : (Lane.ofBits 0xFFC00#32 : E) = E.num (1047552 / 2^149) := by
  simp [E.ofBits_eq, E.ofBits, E.valQ] <;> norm_num
@[simp] theorem E.ofBits_007FFFFF : (Lane.ofBits 0x7FFFFF#32 : E) = E.num (8388607 / 2^149) := by
  simp [E.ofBits_eq, E.ofBits, E.valQ] <;> norm_num
@[simp] theorem E.ofBits_00800000 : (Lane.ofBits 0x800000#32 : E) = E.num (1 / 85070591730234615865843651857942052864) := by
  simp [E.ofBits_eq, E.ofBits, E.valQ] <;> norm_num
@[simp] theorem E.ofBits_00FF0000 : (Lane.ofBits 0xFF0000#32 : E) = E.num (255 / 10889035741470030830827987437816582766592) := by
  simp [E.ofBits_eq, E.ofBits, E.valQ] <;> norm_num
@[simp] theorem E.ofBits_20000000 : (Lane.ofBits 0x20000000#32 : E) = E.num (1 / 9223372036854775808) := by
  simp [E.ofBits_eq, E.ofBits, E.valQ] <;> norm_num
@[simp] theorem E.ofBits_2E85A309 : (Lane.ofBits 0x2E85A309#32 : E) = E.num (8758025 / 144115188075855872) := by
  simp [E.ofBits_eq, E.ofBits, E.valQ] <;> norm_num
@[simp] theorem E.ofBits_2F808081 : (Lane.ofBits 0x2F808081#32 : E) = E.num (8421505 / 36028797018963968) := by
  simp [E.ofBits_eq, E.ofBits, E.valQ] <;> norm_num
@[simp] theorem E.ofBits_2FAAAAAB : (Lane.ofBits 0x2FAAAAAB#32 : E) = E.num (11184811 / 36028797018963968) := by
  simp [E.ofBits_eq, E.ofBits, E.valQ] <;> norm_num
@[simp] theorem E.ofBits_30000100 : (Lane.ofBits 0x30000100#32 : E) = E.num (32769 / 70368744177664) := by
  simp [E.ofBits_eq, E.ofBits, E.valQ] <;> norm_num
@[simp] theorem E.ofBits_30800000 : (Lane.ofBits 0x30800000#32 : E) = E.num (1 / 1073741824) := by
  simp [E.ofBits_eq, E.ofBits, E.valQ] <;> norm_num
@[simp] theorem E.ofBits_31004020 : (Lane.ofBits 0x31004020#32 : E) = E.num (262657 / 140737488355328) := by
  simp [E.ofBits_eq, E.ofBits, E.valQ] <;> norm_num
@[simp] theorem E.ofBits_33808081 : (Lane.ofBits 0x33808081#32 : E) = E.num (8421505 / 140737488355328) := by
  simp [E.ofBits_eq, E.ofBits, E.valQ] <;> norm_num
@[simp] theorem E.ofBits_34000000 : (Lane.ofBits 0x34000000#32 : E) = E.num (1 / 8388608) := by
  simp [E.ofBits_eq, E.ofBits, E.valQ] <;> norm_num
@[simp] theorem E.ofBits_3505BBA8 : (Lane.ofBits 0x3505BBA8#32 : E) = E.num (1095541 / 2199023255552) := by
  simp [E.ofBits_eq, E.ofBits, E.valQ] <;> norm_num
@[simp] theorem E.ofBits_35800000 : (Lane.ofBits 0x35800000#32 : E) = E.num (1 / 1048576) := by
  simp [E.ofBits_eq, E.ofBits, E.valQ] <;> norm_num
@[simp] theorem E.ofBits_36004020 : (Lane.ofBits 0x36004020#32 : E) = E.num (262657 / 137438953472) := by
  simp [E.ofBits_eq, E.ofBits, E.valQ] <;> norm_num
@[simp] theorem E.ofBits_3638B88E : (Lane.ofBits 0x3638B88E#32 : E) = E.num (6052935 / 2199023255552) := by
  simp [E.ofBits_eq, E.ofBits, E.valQ] <;> norm_num
@[simp] theorem E.ofBits_3727C5AC : (Lane.ofBits 0x3727C5AC#32 : E) = E.num (2748779 / 274877906944) := by
  simp [E.ofBits_eq, E.ofBits, E.valQ] <;> norm_num
@[simp] theorem E.ofBits_37800000 : (Lane.ofBits 0x37800000#32 : E) = E.num (1 / 65536) := by
  simp [E.ofBits_eq, E.ofBits, E.valQ] <;> norm_num
@[simp] theorem E.ofBits_37808081 : (Lane.ofBits 0x37808081#32 : E) = E.num (8421505 / 549755813888) := by
  simp [E.ofBits_eq, E.ofBits, E.valQ] <;> norm_num
@[simp] theorem E.ofBits_37CFB4C2 : (Lane.ofBits 0x37CFB4C2#32 : E) = E.num (6806113 / 274877906944) := by
  simp [E.ofBits_eq, E.ofBits, E.valQ] <;> norm_num
@[simp] theorem E.ofBits_38000100 : (Lane.ofBits 0x38000100#32 : E) = E.num (32769 / 1073741824) := by
  simp [E.ofBits_eq, E.ofBits, E.valQ] <;> norm_num
@[simp] theorem E.ofBits_3824BEC9 : (Lane.ofBits 0x3824BEC9#32 : E) = E.num (10796745 / 274877906944) := by
  simp [E.ofBits_eq, E.ofBits, E.valQ] <;> norm_num
@[simp] theorem E.ofBits_38CB3F0C : (Lane.ofBits 0x38CB3F0C#32 : E) = E.num (3329987 / 34359738368) := by
  simp [E.ofBits_eq, E.ofBits, E.valQ] <;> norm_num
@[simp] theorem E.ofBits_38D1B717 : (Lane.ofBits 0x38D1B717#32 : E) = E.num (13743895 / 137438953472) := by
  simp [E.ofBits_eq, E.ofBits, E.valQ] <;> norm_num
@[simp] theorem E.ofBits_391AA7D7 : (Lane.ofBits 0x391AA7D7#32 : E) = E.num (10135511 / 68719476736) := by
  simp [E.ofBits_eq, E.ofBits, E.valQ] <;> norm_num
@[simp] theorem E.ofBits_39500BF1 : (Lane.ofBits 0x39500BF1#32 : E) = E.num (13634545 / 68719476736) := by
  simp [E.ofBits_eq, E.ofBits, E.valQ] <;> norm_num
@[simp] theorem E.ofBits_397ABEB9 : (Lane.ofBits 0x397ABEB9#32 : E) = E.num (16432825 / 68719476736) := by
  simp [E.ofBits_eq, E.ofBits, E.valQ] <;> norm_num
@[simp] theorem E.ofBits_39800000 : (Lane.ofBits 0x39800000#32 : E) = E.num (1 / 4096) := by
  simp [E.ofBits_eq, E.ofBits, E.valQ] <;> norm_num
@[simp] theorem E.ofBits_3A1AAC12 : (Lane.ofBits 0x3A1AAC12#32 : E) = E.num (5068297 / 8589934592) := by
  simp [E.ofBits_eq, E.ofBits, E.valQ] <;> norm_num
@[simp] theorem E.ofBits_3A800000 : (Lane.ofBits 0x3A800000#32 : E) = E.num (1 / 1024) := by
  simp [E.ofBits_eq, E.ofBits, E.valQ] <;> norm_num
@[simp] theorem E.ofBits_3AB609AA : (Lane.ofBits 0x3AB609AA#32 : E) = E.num (5965013 / 4294967296) := by
  simp [E.ofBits_eq, E.ofBits, E.valQ] <;> norm_num
@[simp] theorem E.ofBits_3ABED1B3 : (Lane.ofBits 0x3ABED1B3#32 : E) = E.num (12505523 / 8589934592) := by
  simp [E.ofBits_eq, E.ofBits, E.valQ] <;> norm_num
@[simp] theorem E.ofBits_3B004020 : (Lane.ofBits 0x3B004020#32 : E) = E.num (262657 / 134217728) := by
  simp [E.ofBits_eq, E.ofBits, E.valQ] <;> norm_num
@[simp] theorem E.ofBits_3B3BD74A : (Lane.ofBits 0x3B3BD74A#32 : E) = E.num (6155173 / 2147483648) := by
  simp [E.ofBits_eq, E.ofBits, E.valQ] <;> norm_num
@[simp] theorem E.ofBits_3B607415 : (Lane.ofBits 0x3B607415#32 : E) = E.num (14709781 / 4294967296) := by
  simp [E.ofBits_eq, E.ofBits, E.valQ] <;> norm_num
@[simp] theorem E.ofBits_3B6B69E9 : (Lane.ofBits 0x3B6B69E9#32 : E) = E.num (15428073 / 4294967296) := by
  simp [E.ofBits_eq, E.ofBits, E.valQ] <;> norm_num
@[simp] theorem E.ofBits_3B808081 : (Lane.ofBits 0x3B808081#32 : E) = E.num (8421505 / 2147483648) := by
  simp [E.ofBits_eq, E.ofBits, E.valQ] <;> norm_num
@[simp] theorem E.ofBits_3BDA90C5 : (Lane.ofBits 0x3BDA90C5#32 : E) = E.num (14323909 / 2147483648) := by
  simp [E.ofBits_eq, E.ofBits, E.valQ] <;> norm_num
@[simp] theorem E.ofBits_3C08373C : (Lane.ofBits 0x3C08373C#32 : E) = E.num (2231759 / 268435456) := by
  simp [E.ofBits_eq, E.ofBits, E.valQ] <;> norm_num
@[simp] theorem E.ofBits_3C088886 : (Lane.ofBits 0x3C088886#32 : E) = E.num (4473923 / 536870912) := by
  simp [E.ofBits_eq, E.ofBits, E.valQ] <;> norm_num
@[simp] theorem E.ofBits_3C11371B : (Lane.ofBits 0x3C11371B#32 : E) = E.num (9516827 / 1073741824) := by
  simp [E.ofBits_eq, E.ofBits, E.valQ] <;> norm_num
@[simp] theorem E.ofBits_3C1D8C54 : (Lane.ofBits 0x3C1D8C54#32 : E) = E.num (2581269 / 268435456) := by
  simp [E.ofBits_eq, E.ofBits, E.valQ] <;> norm_num
@[simp] theorem E.ofBits_3C8BFC66 : (Lane.ofBits 0x3C8BFC66#32 : E) = E.num (4587059 / 268435456) := by
  simp [E.ofBits_eq, E.ofBits, E.valQ] <;> norm_num
@[simp] theorem E.ofBits_3CAAAE5F : (Lane.ofBits 0x3CAAAE5F#32 : E) = E.num (11185759 / 536870912) := by
  simp [E.ofBits_eq, E.ofBits, E.valQ] <;> norm_num
@[simp] theorem E.ofBits_3CB327A4 : (Lane.ofBits 0x3CB327A4#32 : E) = E.num (2935273 / 134217728) := by
  simp [E.ofBits_eq, E.ofBits, E.valQ] <;> norm_num
@[simp] theorem E.ofBits_3CD23CF5 : (Lane.ofBits 0x3CD23CF5#32 : E) = E.num (13778165 / 536870912) := by
  simp [E.ofBits_eq, E.ofBits, E.valQ] <;> norm_num
@[simp] theorem E.ofBits_3CFD10F8 : (Lane.ofBits 0x3CFD10F8#32 : E) = E.num (2073119 / 67108864) := by
  simp [E.ofBits_eq, E.ofBits, E.valQ] <;> norm_num
@[simp] theorem E.ofBits_3D29F587 : (Lane.ofBits 0x3D29F587#32 : E) = E.num (11138439 / 268435456) := by
  simp [E.ofBits_eq, E.ofBits, E.valQ] <;> norm_num
@[simp] theorem E.ofBits_3D2AAAA3 : (Lane.ofBits 0x3D2AAAA3#32 : E) = E.num (11184803 / 268435456) := by
  simp [E.ofBits_eq, E.ofBits, E.valQ] <;> norm_num
@[simp] theorem E.ofBits_3D2FC1FE : (Lane.ofBits 0x3D2FC1FE#32 : E) = E.num (5759231 / 134217728) := by
  simp [E.ofBits_eq, E.ofBits, E.valQ] <;> norm_num
@[simp] theorem E.ofBits_3D4D8392 : (Lane.ofBits 0x3D4D8392#32 : E) = E.num (6734281 / 134217728) := by
  simp [E.ofBits_eq, E.ofBits, E.valQ] <;> norm_num
@[simp] theorem E.ofBits_3D5D0DD1 : (Lane.ofBits 0x3D5D0DD1#32 : E) = E.num (14486993 / 268435456) := by
  simp [E.ofBits_eq, E.ofBits, E.valQ] <;> norm_num
@[simp] theorem E.ofBits_3D6147AE : (Lane.ofBits 0x3D6147AE#32 : E) = E.num (7381975 / 134217728) := by
  simp [E.ofBits_eq, E.ofBits, E.valQ] <;> norm_num
@[simp] theorem E.ofBits_3D6A1405 : (Lane.ofBits 0x3D6A1405#32 : E) = E.num (15340549 / 268435456) := by
  simp [E.ofBits_eq, E.ofBits, E.valQ] <;> norm_num
@[simp] theorem E.ofBits_3D981627 : (Lane.ofBits 0x3D981627#32 : E) = E.num (9967143 / 134217728) := by
  simp [E.ofBits_eq, E.ofBits, E.valQ] <;> norm_num
@[simp] theorem E.ofBits_3DB63A9E : (Lane.ofBits 0x3DB63A9E#32 : E) = E.num (5971279 / 67108864) := by
  simp [E.ofBits_eq, E.ofBits, E.valQ] <;> norm_num
@[simp] theorem E.ofBits_3DDA3D83 : (Lane.ofBits 0x3DDA3D83#32 : E) = E.num (14302595 / 134217728) := by
  simp [E.ofBits_eq, E.ofBits, E.valQ] <;> norm_num
@[simp] theorem E.ofBits_3E088889 : (Lane.ofBits 0x3E088889#32 : E) = E.num (8947849 / 67108864) := by
  simp [E.ofBits_eq, E.ofBits, E.valQ] <;> norm_num
@[simp] theorem E.ofBits_3E22F983 : (Lane.ofBits 0x3E22F983#32 : E) = E.num (10680707 / 67108864) := by
  simp [E.ofBits_eq, E.ofBits, E.valQ] <;> norm_num
@[simp] theorem E.ofBits_3E2AA888 : (Lane.ofBits 0x3E2AA888#32 : E) = E.num (1398033 / 8388608) := by
  simp [E.ofBits_eq, E.ofBits, E.valQ] <;> norm_num
@[simp] theorem E.ofBits_3E2AAAAB : (Lane.ofBits 0x3E2AAAAB#32 : E) = E.num (11184811 / 67108864) := by
  simp [E.ofBits_eq, E.ofBits, E.valQ] <;> norm_num
@[simp] theorem E.ofBits_3E3876E2 : (Lane.ofBits 0x3E3876E2#32 : E) = E.num (6044529 / 33554432) := by
  simp [E.ofBits_eq, E.ofBits, E.valQ] <;> norm_num
@[simp] theorem E.ofBits_3E4CBBE5 : (Lane.ofBits 0x3E4CBBE5#32 : E) = E.num (13417445 / 67108864) := by
  simp [E.ofBits_eq, E.ofBits, E.valQ] <;> norm_num
@[simp] theorem E.ofBits_3E593484 : (Lane.ofBits 0x3E593484#32 : E) = E.num (3558689 / 16777216) := by
  simp [E.ofBits_eq, E.ofBits, E.valQ] <;> norm_num
@[simp] theorem E.ofBits_3E5BBFCA : (Lane.ofBits 0x3E5BBFCA#32 : E) = E.num (7200741 / 33554432) := by
  simp [E.ofBits_eq, E.ofBits, E.valQ] <;> norm_num
@[simp] theorem E.ofBits_3E75FDED : (Lane.ofBits 0x3E75FDED#32 : E) = E.num (16121325 / 67108864) := by
  simp [E.ofBits_eq, E.ofBits, E.valQ] <;> norm_num
@[simp] theorem E.ofBits_3E7E8E61 : (Lane.ofBits 0x3E7E8E61#32 : E) = E.num (16682593 / 67108864) := by
  simp [E.ofBits_eq, E.ofBits, E.valQ] <;> norm_num
@[simp] theorem E.ofBits_3EA2F983 : (Lane.ofBits 0x3EA2F983#32 : E) = E.num (10680707 / 33554432) := by
  simp [E.ofBits_eq, E.ofBits, E.valQ] <;> norm_num
@[simp] theorem E.ofBits_3EAAAAAB : (Lane.ofBits 0x3EAAAAAB#32 : E) = E.num (11184811 / 33554432) := by
  simp [E.ofBits_eq, E.ofBits, E.valQ] <;> norm_num
@[simp] theorem E.ofBits_3EF571D2 : (Lane.ofBits 0x3EF571D2#32 : E) = E.num (8042729 / 16777216) := by
  simp [E.ofBits_eq, E.ofBits, E.valQ] <;> norm_num
@[simp] theorem E.ofBits_3EFFF67E : (Lane.ofBits 0x3EFFF67E#32 : E) = E.num (8387391 / 16777216) := by
  simp [E.ofBits_eq, E.ofBits, E.valQ] <;> norm_num
@[simp] theorem E.ofBits_3EFFFFFD : (Lane.ofBits 0x3EFFFFFD#32 : E) = E.num (16777213 / 33554432) := by
  simp [E.ofBits_eq, E.ofBits, E.valQ] <;> norm_num
@[simp] theorem E.ofBits_3F000000 : (Lane.ofBits 0x3F000000#32 : E) = E.num (1 / 2) := by
  simp [E.ofBits_eq, E.ofBits, E.valQ] <;> norm_num
@[simp] theorem E.ofBits_3F22F983 : (Lane.ofBits 0x3F22F983#32 : E) = E.num (10680707 / 16777216) := by
  simp [E.ofBits_eq, E.ofBits, E.valQ] <;> norm_num
@[simp] theorem E.ofBits_3F317218 : (Lane.ofBits 0x3F317218#32 : E) = E.num (1453635 / 2097152) := by
  simp [E.ofBits_eq, E.ofBits, E.valQ] <;> norm_num
@[simp] theorem E.ofBits_3F490FDB : (Lane.ofBits 0x3F490FDB#32 : E) = E.num (13176795 / 16777216) := by
  simp [E.ofBits_eq, E.ofBits, E.valQ] <;> norm_num
@[simp] theorem E.ofBits_3F7FF738 : (Lane.ofBits 0x3F7FF738#32 : E) = E.num (2096871 / 2097152) := by
  simp [E.ofBits_eq, E.ofBits, E.valQ] <;> norm_num
@[simp] theorem E.ofBits_3F800000 : (Lane.ofBits 0x3F800000#32 : E) = E.num 1 := by
  simp [E.ofBits_eq, E.ofBits, E.valQ] <;> norm_num
@[simp] theorem E.ofBits_3F870A3D : (Lane.ofBits 0x3F870A3D#32 : E) = E.num (8849981 / 8388608) := by
  simp [E.ofBits_eq, E.ofBits, E.valQ] <;> norm_num
@[simp] theorem E.ofBits_3FB8AA2A : (Lane.ofBits 0x3FB8AA2A#32 : E) = E.num (6051093 / 4194304) := by
  simp [E.ofBits_eq, E.ofBits, E.valQ] <;> norm_num
@[simp] theorem E.ofBits_3FB8AA3B : (Lane.ofBits 0x3FB8AA3B#32 : E) = E.num (12102203 / 8388608) := by
  simp [E.ofBits_eq, E.ofBits, E.valQ] <;> norm_num
@[simp] theorem E.ofBits_3FC90DA4 : (Lane.ofBits 0x3FC90DA4#32 : E) = E.num (3294057 / 2097152) := by
  simp [E.ofBits_eq, E.ofBits, E.valQ] <;> norm_num
@[simp] theorem E.ofBits_3FC90FDA : (Lane.ofBits 0x3FC90FDA#32 : E) = E.num (6588397 / 4194304) := by
  simp [E.ofBits_eq, E.ofBits, E.valQ] <;> norm_num
@[simp] theorem E.ofBits_3FC90FDB : (Lane.ofBits 0x3FC90FDB#32 : E) = E.num (13176795 / 8388608) := by
  simp [E.ofBits_eq, E.ofBits, E.valQ] <;> norm_num
@[simp] theorem E.ofBits_3FF00000 : (Lane.ofBits 0x3FF00000#32 : E) = E.num (15 / 8) := by
  simp [E.ofBits_eq, E.ofBits, E.valQ] <;> norm_num
@[simp] theorem E.ofBits_40000000 : (Lane.ofBits 0x40000000#32 : E) = E.num 2 := by
  simp [E.ofBits_eq, E.ofBits, E.valQ] <;> norm_num
@[simp] theorem E.ofBits_401DE9E6 : (Lane.ofBits 0x401DE9E6#32 : E) = E.num (5174515 / 2097152) := by
  simp [E.ofBits_eq, E.ofBits, E.valQ] <;> norm_num
@[simp] theorem E.ofBits_401EF9DB : (Lane.ofBits 0x401EF9DB#32 : E) = E.num (10418651 / 4194304) := by
  simp [E.ofBits_eq, E.ofBits, E.valQ] <;> norm_num
@[simp] theorem E.ofBits_40400000 : (Lane.ofBits 0x40400000#32 : E) = E.num 3 := by
  simp [E.ofBits_eq, E.ofBits, E.valQ] <;> norm_num
@[simp] theorem E.ofBits_40490FDB : (Lane.ofBits 0x40490FDB#32 : E) = E.num (13176795 / 4194304) := by
  simp [E.ofBits_eq, E.ofBits, E.valQ] <;> norm_num
@[simp] theorem E.ofBits_40800000 : (Lane.ofBits 0x40800000#32 : E) = E.num 4 := by
  simp [E.ofBits_eq, E.ofBits, E.valQ] <;> norm_num
@[simp] theorem E.ofBits_40A00000 : (Lane.ofBits 0x40A00000#32 : E) = E.num 5 := by
  simp [E.ofBits_eq, E.ofBits, E.valQ] <;> norm_num
@[simp] theorem E.ofBits_40C00000 : (Lane.ofBits 0x40C00000#32 : E) = E.num 6 := by
  simp [E.ofBits_eq, E.ofBits, E.valQ] <;> norm_num
@[simp] theorem E.ofBits_40C90FDB : (Lane.ofBits 0x40C90FDB#32 : E) = E.num (13176795 / 2097152) := by
  simp [E.ofBits_eq, E.ofBits, E.valQ] <;> norm_num
@[simp] theorem E.ofBits_414EB852 : (Lane.ofBits 0x414EB852#32 : E) = E.num (6773801 / 524288) := by
  simp [E.ofBits_eq, E.ofBits, E.valQ] <;> norm_num
@[simp] theorem E.ofBits_42FE0000 : (Lane.ofBits 0x42FE0000#32 : E) = E.num 127 := by
  simp [E.ofBits_eq, E.ofBits, E.valQ] <;> norm_num
@[simp] theorem E.ofBits_43000000 : (Lane.ofBits 0x43000000#32 : E) = E.num 128 := by
  simp [E.ofBits_eq, E.ofBits, E.valQ] <;> norm_num
@[simp] theorem E.ofBits_43340000 : (Lane.ofBits 0x43340000#32 : E) = E.num 180 := by
  simp [E.ofBits_eq, E.ofBits, E.valQ] <;> norm_num
@[simp] theorem E.ofBits_437F0000 : (Lane.ofBits 0x437F0000#32 : E) = E.num 255 := by
  simp [E.ofBits_eq, E.ofBits, E.valQ] <;> norm_num
@[simp] theorem E.ofBits_46FFFE00 : (Lane.ofBits 0x46FFFE00#32 : E) = E.num 32767 := by
  simp [E.ofBits_eq, E.ofBits, E.valQ] <;> norm_num
@[simp] theorem E.ofBits_477FFF00 : (Lane.ofBits 0x477FFF00#32 : E) = E.num 65535 := by
  simp [E.ofBits_eq, E.ofBits, E.valQ] <;> norm_num
@[simp] theorem E.ofBits_4B000000 : (Lane.ofBits 0x4B000000#32 : E) = E.num 8388608 := by
  simp [E.ofBits_eq, E.ofBits, E.valQ] <;> norm_num
@[simp] theorem E.ofBits_4EFFFFFF : (Lane.ofBits 0x4EFFFFFF#32 : E) = E.num 2147483520 := by
  simp [E.ofBits_eq, E.ofBits, E.valQ] <;> norm_num
@[simp] theorem E.ofBits_4F000000 : (Lane.ofBits 0x4F000000#32 : E) = E.num 2147483648 := by
  simp [E.ofBits_eq, E.ofBits, E.valQ] <;> norm_num
@[simp] theorem E.ofBits_4F7FFFFF : (Lane.ofBits 0x4F7FFFFF#32 : E) = E.num 4294967040 := by
  simp [E.ofBits_eq, E.ofBits, E.valQ] <;> norm_num
@[simp] theorem E.ofBits_7F7FFFFF : (Lane.ofBits 0x7F7FFFFF#32 : E) = E.num 340282346638528859811704183484516925440 := by
  simp [E.ofBits_eq, E.ofBits, E.valQ] <;> norm_num
@[simp] theorem E.ofBits_7F800000 : (Lane.ofBits 0x7F800000#32 : E) = E.posInf := by
  simp [E.ofBits_eq, E.ofBits]
@[simp] theorem E.ofBits_7FC00000 : (Lane.ofBits 0x7FC00000#32 : E) = E.nan := by
  simp [E.ofBits_eq, E.ofBits]
@[simp] theorem E.ofBits_7FFFFFFF : (Lane.ofBits 0x7FFFFFFF#32 : E) = E.absMask := by
  simp [E.ofBits_eq, E.ofBits]
@[simp] theorem E.ofBits_80000000 : (Lane.ofBits 0x80000000#32 : E) = E.negZero := by
  simp [E.ofBits_eq, E.ofBits]
@[simp] theorem E.ofBits_B2CD365B : (Lane.ofBits 0xB2CD365B#32 : E) = E.num (-13448795 / 562949953421312) := by
  simp [E.ofBits_eq, E.ofBits, E.valQ] <;> norm_num
@[simp] theorem E.ofBits_B48BDD11 : (Lane.ofBits 0xB48BDD11#32 : E) = E.num (-9166097 / 35184372088832) := by
  simp [E.ofBits_eq, E.ofBits, E.valQ] <;> norm_num
@[simp] theorem E.ofBits_B727C5AC : (Lane.ofBits 0xB727C5AC#32 : E) = E.num (-2748779 / 274877906944) := by
  simp [E.ofBits_eq, E.ofBits, E.valQ] <;> norm_num
@[simp] theorem E.ofBits_B7364261 : (Lane.ofBits 0xB7364261#32 : E) = E.num (-11944545 / 1099511627776) := by
  simp [E.ofBits_eq, E.ofBits, E.valQ] <;> norm_num
@[simp] theorem E.ofBits_B795D5B9 : (Lane.ofBits 0xB795D5B9#32 : E) = E.num (-9819577 / 549755813888) := by
  simp [E.ofBits_eq, E.ofBits, E.valQ] <;> norm_num
@[simp] theorem E.ofBits_B9423EC8 : (Lane.ofBits 0xB9423EC8#32 : E) = E.num (-1591257 / 8589934592) := by
  simp [E.ofBits_eq, E.ofBits, E.valQ] <;> norm_num
@[simp] theorem E.ofBits_B9500BF1 : (Lane.ofBits 0xB9500BF1#32 : E) = E.num (-13634545 / 68719476736) := by
  simp [E.ofBits_eq, E.ofBits, E.valQ] <;> norm_num
@[simp] theorem E.ofBits_B9A37B25 : (Lane.ofBits 0xB9A37B25#32 : E) = E.num (-10713893 / 34359738368) := by
  simp [E.ofBits_eq, E.ofBits, E.valQ] <;> norm_num
@[simp] theorem E.ofBits_BAA57A2C : (Lane.ofBits 0xBAA57A2C#32 : E) = E.num (-2711179 / 2147483648) := by
  simp [E.ofBits_eq, E.ofBits, E.valQ] <;> norm_num
@[simp] theorem E.ofBits_BAA69FDB : (Lane.ofBits 0xBAA69FDB#32 : E) = E.num (-10919899 / 8589934592) := by
  simp [E.ofBits_eq, E.ofBits, E.valQ] <;> norm_num
@[simp] theorem E.ofBits_BAAE1854 : (Lane.ofBits 0xBAAE1854#32 : E) = E.num (-2852373 / 2147483648) := by
  simp [E.ofBits_eq, E.ofBits, E.valQ] <;> norm_num
@[simp] theorem E.ofBits_BAB609AA : (Lane.ofBits 0xBAB609AA#32 : E) = E.num (-5965013 / 4294967296) := by
  simp [E.ofBits_eq, E.ofBits, E.valQ] <;> norm_num
@[simp] theorem E.ofBits_BC2D4F59 : (Lane.ofBits 0xBC2D4F59#32 : E) = E.num (-11358041 / 1073741824) := by
  simp [E.ofBits_eq, E.ofBits, E.valQ] <;> norm_num
@[simp] theorem E.ofBits_BC846E02 : (Lane.ofBits 0xBC846E02#32 : E) = E.num (-4339457 / 268435456) := by
  simp [E.ofBits_eq, E.ofBits, E.valQ] <;> norm_num
@[simp] theorem E.ofBits_BC8BFC66 : (Lane.ofBits 0xBC8BFC66#32 : E) = E.num (-4587059 / 268435456) := by
  simp [E.ofBits_eq, E.ofBits, E.valQ] <;> norm_num
@[simp] theorem E.ofBits_BC996E30 : (Lane.ofBits 0xBC996E30#32 : E) = E.num (-628451 / 33554432) := by
  simp [E.ofBits_eq, E.ofBits, E.valQ] <;> norm_num
@[simp] theorem E.ofBits_BD4D8392 : (Lane.ofBits 0xBD4D8392#32 : E) = E.num (-6734281 / 134217728) := by
  simp [E.ofBits_eq, E.ofBits, E.valQ] <;> norm_num
@[simp] theorem E.ofBits_BD6357CA : (Lane.ofBits 0xBD6357CA#32 : E) = E.num (-7449573 / 134217728) := by
  simp [E.ofBits_eq, E.ofBits, E.valQ] <;> norm_num
@[simp] theorem E.ofBits_BD9A3174 : (Lane.ofBits 0xBD9A3174#32 : E) = E.num (-2526301 / 33554432) := by
  simp [E.ofBits_eq, E.ofBits, E.valQ] <;> norm_num
@[simp] theorem E.ofBits_BDAE5A36 : (Lane.ofBits 0xBDAE5A36#32 : E) = E.num (-5713179 / 67108864) := by
  simp [E.ofBits_eq, E.ofBits, E.valQ] <;> norm_num
@[simp] theorem E.ofBits_BE0895AF : (Lane.ofBits 0xBE0895AF#32 : E) = E.num (-8951215 / 67108864) := by
  simp [E.ofBits_eq, E.ofBits, E.valQ] <;> norm_num
@[simp] theorem E.ofBits_BE117FC7 : (Lane.ofBits 0xBE117FC7#32 : E) = E.num (-9535431 / 67108864) := by
  simp [E.ofBits_eq, E.ofBits, E.valQ] <;> norm_num
@[simp] theorem E.ofBits_BE153261 : (Lane.ofBits 0xBE153261#32 : E) = E.num (-9777761 / 67108864) := by
  simp [E.ofBits_eq, E.ofBits, E.valQ] <;> norm_num
@[simp] theorem E.ofBits_BE2AA888 : (Lane.ofBits 0xBE2AA888#32 : E) = E.num (-1398033 / 8388608) := by
  simp [E.ofBits_eq, E.ofBits, E.valQ] <;> norm_num
@[simp] theorem E.ofBits_BE2AAAAB : (Lane.ofBits 0xBE2AAAAB#32 : E) = E.num (-11184811 / 67108864) := by
  simp [E.ofBits_eq, E.ofBits, E.valQ] <;> norm_num
@[simp] theorem E.ofBits_BE482F23 : (Lane.ofBits 0xBE482F23#32 : E) = E.num (-13119267 / 67108864) := by
  simp [E.ofBits_eq, E.ofBits, E.valQ] <;> norm_num
@[simp] theorem E.ofBits_BE593484 : (Lane.ofBits 0xBE593484#32 : E) = E.num (-3558689 / 16777216) := by
  simp [E.ofBits_eq, E.ofBits, E.valQ] <;> norm_num
@[simp] theorem E.ofBits_BE5BBFCA : (Lane.ofBits 0xBE5BBFCA#32 : E) = E.num (-7200741 / 33554432) := by
  simp [E.ofBits_eq, E.ofBits, E.valQ] <;> norm_num
@[simp] theorem E.ofBits_BEA91D04 : (Lane.ofBits 0xBEA91D04#32 : E) = E.num (-2770753 / 8388608) := by
  simp [E.ofBits_eq, E.ofBits, E.valQ] <;> norm_num
@[simp] theorem E.ofBits_BEAAAA6C : (Lane.ofBits 0xBEAAAA6C#32 : E) = E.num (-2796187 / 8388608) := by
  simp [E.ofBits_eq, E.ofBits, E.valQ] <;> norm_num
@[simp] theorem E.ofBits_BEB359DE : (Lane.ofBits 0xBEB359DE#32 : E) = E.num (-5876975 / 16777216) := by
  simp [E.ofBits_eq, E.ofBits, E.valQ] <;> norm_num
@[simp] theorem E.ofBits_BEEEF582 : (Lane.ofBits 0xBEEEF582#32 : E) = E.num (-7830209 / 16777216) := by
  simp [E.ofBits_eq, E.ofBits, E.valQ] <;> norm_num
@[simp] theorem E.ofBits_BEFFF67E : (Lane.ofBits 0xBEFFF67E#32 : E) = E.num (-8387391 / 16777216) := by
  simp [E.ofBits_eq, E.ofBits, E.valQ] <;> norm_num
@[simp] theorem E.ofBits_BF000000 : (Lane.ofBits 0xBF000000#32 : E) = E.num (-1 / 2) := by
  simp [E.ofBits_eq, E.ofBits, E.valQ] <;> norm_num
@[simp] theorem E.ofBits_BF317218 : (Lane.ofBits 0xBF317218#32 : E) = E.num (-1453635 / 2097152) := by
  simp [E.ofBits_eq, E.ofBits, E.valQ] <;> norm_num
@[simp] theorem E.ofBits_BF38A351 : (Lane.ofBits 0xBF38A351#32 : E) = E.num (-12100433 / 16777216) := by
  simp [E.ofBits_eq, E.ofBits, E.valQ] <;> norm_num
@[simp] theorem E.ofBits_BF800000 : (Lane.ofBits 0xBF800000#32 : E) = E.num (-1) := by
  simp [E.ofBits_eq, E.ofBits, E.valQ] <;> norm_num
@[simp] theorem E.ofBits_C0000000 : (Lane.ofBits 0xC0000000#32 : E) = E.num (-2) := by
  simp [E.ofBits_eq, E.ofBits, E.valQ] <;> norm_num
@[simp] theorem E.ofBits_C0400000 : (Lane.ofBits 0xC0400000#32 : E) = E.num (-3) := by
  simp [E.ofBits_eq, E.ofBits, E.valQ] <;> norm_num
@[simp] theorem E.ofBits_C0490FDB : (Lane.ofBits 0xC0490FDB#32 : E) = E.num (-13176795 / 4194304) := by
  simp [E.ofBits_eq, E.ofBits, E.valQ] <;> norm_num
@[simp] theorem E.ofBits_C0C90FDB : (Lane.ofBits 0xC0C90FDB#32 : E) = E.num (-13176795 / 2097152) := by
  simp [E.ofBits_eq, E.ofBits, E.valQ] <;> norm_num
@[simp] theorem E.ofBits_C2FE0000 : (Lane.ofBits 0xC2FE0000#32 : E) = E.num (-127) := by
  simp [E.ofBits_eq, E.ofBits, E.valQ] <;> norm_num
@[simp] theorem E.ofBits_C3000000 : (Lane.ofBits 0xC3000000#32 : E) = E.num (-128) := by
  simp [E.ofBits_eq, E.ofBits, E.valQ] <;> norm_num
@[simp] theorem E.ofBits_C3160000 : (Lane.ofBits 0xC3160000#32 : E) = E.num (-150) := by
  simp [E.ofBits_eq, E.ofBits, E.valQ] <;> norm_num
@[simp] theorem E.ofBits_C4000000 : (Lane.ofBits 0xC4000000#32 : E) = E.num (-512) := by
  simp [E.ofBits_eq, E.ofBits, E.valQ] <;> norm_num
@[simp] theorem E.ofBits_C6FFFE00 : (Lane.ofBits 0xC6FFFE00#32 : E) = E.num (-32767) := by
  simp [E.ofBits_eq, E.ofBits, E.valQ] <;> norm_num
@[simp] theorem E.ofBits_C7000000 : (Lane.ofBits 0xC7000000#32 : E) = E.num (-32768) := by
  simp [E.ofBits_eq, E.ofBits, E.valQ] <;> norm_num
@[simp] theorem E.ofBits_C9000000 : (Lane.ofBits 0xC9000000#32 : E) = E.num (-524288) := by
  simp [E.ofBits_eq, E.ofBits, E.valQ] <;> norm_num
@[simp] theorem E.ofBits_CB000000 : (Lane.ofBits 0xCB000000#32 : E) = E.num (-8388608) := by
  simp [E.ofBits_eq, E.ofBits, E.valQ] <;> norm_num
@[simp] theorem E.ofBits_CE000000 : (Lane.ofBits 0xCE000000#32 : E) = E.num (-536870912) := by
  simp [E.ofBits_eq, E.ofBits, E.valQ] <;> norm_num
@[simp] theorem E.ofBits_FF000000 : (Lane.ofBits 0xFF000000#32 : E) = E.num (-170141183460469231731687303715884105728) := by
  simp [E.ofBits_eq, E.ofBits, E.valQ] <;> norm_num
@[simp] theorem E.ofBits_FF800000 : (Lane.ofBits 0xFF800000#32 : E) = E.negInf := by
  simp [E.ofBits_eq, E.ofBits]
@[simp] theorem E.ofBits_FFC00000 : (Lane.ofBits 0xFFC00000#32 : E) = E.nan := by
  simp [E.ofBits_eq, E.ofBits]
@[simp] theorem E.ofBits_FFFF0000 : (Lane.ofBits 0xFFFF0000#32 : E) = E.nan := by
  simp [E.ofBits_eq, E.ofBits]
@[simp] theorem E.ofBits_FFFFFF82 : (Lane.ofBits 0xFFFFFF82#32 : E) = E.nan := by
  simp [E.ofBits_eq, E.ofBits]
@[simp] theorem E.ofBits_FFFFFFFF : (Lane.ofBits 0xFFFFFFFF#32 : E) = E.ones := by
  simp [E.ofBits_eq, E.ofBits]
@[simp] theorem E.XM_PI_val : (XM_PI : E) = E.num (13176795 / 4194304) := by simp [XM_PI]
@[simp] theorem E.XM_2PI_val : (XM_2PI : E) = E.num (13176795 / 2097152) := by simp [XM_2PI]
@[simp] theorem E.XM_1DIVPI_val : (XM_1DIVPI : E) = E.num (10680707 / 33554432) := by simp [XM_1DIVPI]
@[simp] theorem E.XM_1DIV2PI_val : (XM_1DIV2PI : E) = E.num (10680707 / 67108864) := by simp [XM_1DIV2PI]
@[simp] theorem E.XM_PIDIV2_val : (XM_PIDIV2 : E) = E.num (13176795 / 8388608) := by simp [XM_PIDIV2]
@[simp] theorem E.XM_PIDIV4_val : (XM_PIDIV4 : E) = E.num (13176795 / 16777216) := by simp [XM_PIDIV4]
@[simp] theorem E.g_XMSinCoefficients0_val : (g_XMSinCoefficients0 : V4 E) = ⟨E.num (-11184811 / 67108864), E.num (4473923 / 536870912), E.num (-13634545 / 68719476736), E.num (6052935 / 2199023255552)⟩ := by simp [g_XMSinCoefficients0]
@[simp] theorem E.g_XMSinCoefficients1_val : (g_XMSinCoefficients1 : V4 E) = ⟨E.num (-13448795 / 562949953421312), E.num (-1398033 / 8388608), E.num (2231759 / 268435456), E.num (-1591257 / 8589934592)⟩ := by simp [g_XMSinCoefficients1]
@[simp] theorem E.g_XMCosCoefficients0_val : (g_XMCosCoefficients0 : V4 E) = ⟨E.num (-1 / 2), E.num (11184803 / 268435456), E.num (-5965013 / 4294967296), E.num (6806113 / 274877906944)⟩ := by simp [g_XMCosCoefficients0]
@[simp] theorem E.g_XMCosCoefficients1_val : (g_XMCosCoefficients1 : V4 E) = ⟨E.num (-9166097 / 35184372088832), E.num (-8387391 / 16777216), E.num (11138439 / 268435456), E.num (-10919899 / 8589934592)⟩ := by simp [g_XMCosCoefficients1]
@[simp] theorem E.g_XMTanCoefficients0_val : (g_XMTanCoefficients0 : V4 E) = ⟨E.num 1, E.num (11184811 / 33554432), E.num (8947849 / 67108864), E.num (14486993 / 268435456)⟩ := by simp [g_XMTanCoefficients0]
@[simp] theorem E.g_XMTanCoefficients1_val : (g_XMTanCoefficients1 : V4 E) = ⟨E.num (2935273 / 134217728), E.num (9516827 / 1073741824), E.num (15428073 / 4294967296), E.num (12505523 / 8589934592)⟩ := by simp [g_XMTanCoefficients1]
@[simp] theorem E.g_XMTanCoefficients2_val : (g_XMTanCoefficients2 : V4 E) = ⟨E.num (5068297 / 8589934592), E.num (16432825 / 68719476736), E.num (3329987 / 34359738368), E.num (10796745 / 274877906944)⟩ := by simp [g_XMTanCoefficients2]
@[simp] theorem E.g_XMArcCoefficients0_val : (g_XMArcCoefficients0 : V4 E) = ⟨E.num (6588397 / 4194304), E.num (-7200741 / 33554432), E.num (5971279 / 67108864), E.num (-6734281 / 134217728)⟩ := by simp [g_XMArcCoefficients0]
@[simp] theorem E.g_XMArcCoefficients1_val : (g_XMArcCoefficients1 : V4 E) = ⟨E.num (2073119 / 67108864), E.num (-4587059 / 268435456), E.num (14323909 / 2147483648), E.num (-2711179 / 2147483648)⟩ := by simp [g_XMArcCoefficients1]
@[simp] theorem E.g_XMATanCoefficients0_val : (g_XMATanCoefficients0 : V4 E) = ⟨E.num (-2796187 / 8388608), E.num (13417445 / 67108864), E.num (-9535431 / 67108864), E.num (14302595 / 134217728)⟩ := by simp [g_XMATanCoefficients0]
@[simp] theorem E.g_XMATanCoefficients1_val : (g_XMATanCoefficients1 : V4 E) = ⟨E.num (-2526301 / 33554432), E.num (5759231 / 134217728), E.num (-4339457 / 268435456), E.num (6155173 / 2147483648)⟩ := by simp [g_XMATanCoefficients1]
@[simp] theorem E.g_XMATanEstCoefficients0_val : (g_XMATanEstCoefficients0 : V4 E) = ⟨E.num (2096871 / 2097152), E.num (2096871 / 2097152), E.num (2096871 / 2097152), E.num (2096871 / 2097152)⟩ := by simp [g_XMATanEstCoefficients0]
@[simp] theorem E.g_XMATanEstCoefficients1_val : (g_XMATanEstCoefficients1 : V4 E) = ⟨E.num (-2770753 / 8388608), E.num (6044529 / 33554432), E.num (-5713179 / 67108864), E.num (11185759 / 536870912)⟩ := by simp [g_XMATanEstCoefficients1]
@[simp] theorem E.g_XMTanEstCoefficients_val : (g_XMTanEstCoefficients : V4 E) = ⟨E.num (10418651 / 4194304), E.num (-13119267 / 67108864), E.num (5174515 / 2097152), E.num (10680707 / 33554432)⟩ := by simp [g_XMTanEstCoefficients]
@[simp] theorem E.g_XMArcEstCoefficients_val : (g_XMArcEstCoefficients : V4 E) = ⟨E.num (3294057 / 2097152), E.num (-3558689 / 16777216), E.num (9967143 / 134217728), E.num (-628451 / 33554432)⟩ := by simp [g_XMArcEstCoefficients]
@[simp] theorem E.g_XMPiConstants0_val : (g_XMPiConstants0 : V4 E) = ⟨E.num (13176795 / 4194304), E.num (13176795 / 2097152), E.num (10680707 / 33554432), E.num (10680707 / 67108864)⟩ := by simp [g_XMPiConstants0]
@[simp] theorem E.g_XMIdentityR0_val : (g_XMIdentityR0 : V4 E) = ⟨E.num 1, E.num 0, E.num 0, E.num 0⟩ := by simp [g_XMIdentityR0]
@[simp] theorem E.g_XMIdentityR1_val : (g_XMIdentityR1 : V4 E) = ⟨E.num 0, E.num 1, E.num 0, E.num 0⟩ := by simp [g_XMIdentityR1]
@[simp] theorem E.g_XMIdentityR2_val : (g_XMIdentityR2 : V4 E) = ⟨E.num 0, E.num 0, E.num 1, E.num 0⟩ := by simp [g_XMIdentityR2]
@[simp] theorem E.g_XMIdentityR3_val : (g_XMIdentityR3 : V4 E) = ⟨E.num 0, E.num 0, E.num 0, E.num 1⟩ := by simp [g_XMIdentityR3]
@[simp] theorem E.g_XMNegIdentityR0_val : (g_XMNegIdentityR0 : V4 E) = ⟨E.num (-1), E.num 0, E.num 0, E.num 0⟩ := by simp [g_XMNegIdentityR0]
@[simp] theorem E.g_XMNegIdentityR1_val : (g_XMNegIdentityR1 : V4 E) = ⟨E.num 0, E.num (-1), E.num 0, E.num 0⟩ := by simp [g_XMNegIdentityR1]
@[simp] theorem E.g_XMNegIdentityR2_val : (g_XMNegIdentityR2 : V4 E) = ⟨E.num 0, E.num 0, E.num (-1), E.num 0⟩ := by simp [g_XMNegIdentityR2]
@[simp] theorem E.g_XMNegIdentityR3_val : (g_XMNegIdentityR3 : V4 E) = ⟨E.num 0, E.num 0, E.num 0, E.num (-1)⟩ := by simp [g_XMNegIdentityR3]
@[simp] theorem E.g_XMNegativeZero_val : (g_XMNegativeZero : V4 E) = ⟨E.negZero, E.negZero, E.negZero, E.negZero⟩ := by simp [g_XMNegativeZero]
@[simp] theorem E.g_XMNegate3_val : (g_XMNegate3 : V4 E) = ⟨E.negZero, E.negZero, E.negZero, E.num 0⟩ := by simp [g_XMNegate3]
@[simp] theorem E.g_XMMaskXY_val : (g_XMMaskXY : V4 E) = ⟨E.ones, E.ones, E.num 0, E.num 0⟩ := by simp [g_XMMaskXY]
@[simp] theorem E.g_XMMask3_val : (g_XMMask3 : V4 E) = ⟨E.ones, E.ones, E.ones, E.num 0⟩ := by simp [g_XMMask3]
@[simp] theorem E.g_XMMaskX_val : (g_XMMaskX : V4 E) = ⟨E.ones, E.num 0, E.num 0, E.num 0⟩ := by simp [g_XMMaskX]
@[simp] theorem E.g_XMMaskY_val : (g_XMMaskY : V4 E) = ⟨E.num 0, E.ones, E.num 0, E.num 0⟩ := by simp [g_XMMaskY]
@[simp] theorem E.g_XMMaskZ_val : (g_XMMaskZ : V4 E) = ⟨E.num 0, E.num 0, E.ones, E.num 0⟩ := by simp [g_XMMaskZ]
@[simp] theorem E.g_XMMaskW_val : (g_XMMaskW : V4 E) = ⟨E.num 0, E.num 0, E.num 0, E.ones⟩ := by simp [g_XMMaskW]
@[simp] theorem E.g_XMOne_val : (g_XMOne : V4 E) = ⟨E.num 1, E.num 1, E.num 1, E.num 1⟩ := by simp [g_XMOne]
@[simp] theorem E.g_XMOne3_val : (g_XMOne3 : V4 E) = ⟨E.num 1, E.num 1, E.num 1, E.num 0⟩ := by simp [g_XMOne3]
@[simp] theorem E.g_XMZero_val : (g_XMZero : V4 E) = ⟨E.num 0, E.num 0, E.num 0, E.num 0⟩ := by simp [g_XMZero]
@[simp] theorem E.g_XMTwo_val : (g_XMTwo : V4 E) = ⟨E.num 2, E.num 2, E.num 2, E.num 2⟩ := by simp [g_XMTwo]
@[simp] theorem E.g_XMFour_val : (g_XMFour : V4 E) = ⟨E.num 4, E.num 4, E.num 4, E.num 4⟩ := by simp [g_XMFour]
@[simp] theorem E.g_XMSix_val : (g_XMSix : V4 E) = ⟨E.num 6, E.num 6, E.num 6, E.num 6⟩ := by simp [g_XMSix]
@[simp] theorem E.g_XMNegativeOne_val : (g_XMNegativeOne : V4 E) = ⟨E.num (-1), E.num (-1), E.num (-1), E.num (-1)⟩ := by simp [g_XMNegativeOne]
@[simp] theorem E.g_XMOneHalf_val : (g_XMOneHalf : V4 E) = ⟨E.num (1 / 2), E.num (1 / 2), E.num (1 / 2), E.num (1 / 2)⟩ := by simp [g_XMOneHalf]
@[simp] theorem E.g_XMNegativeOneHalf_val : (g_XMNegativeOneHalf : V4 E) = ⟨E.num (-1 / 2), E.num (-1 / 2), E.num (-1 / 2), E.num (-1 / 2)⟩ := by simp [g_XMNegativeOneHalf]
@[simp] theorem E.g_XMNegativeTwoPi_val : (g_XMNegativeTwoPi : V4 E) = ⟨E.num (-13176795 / 2097152), E.num (-13176795 / 2097152), E.num (-13176795 / 2097152), E.num (-13176795 / 2097152)⟩ := by simp [g_XMNegativeTwoPi]
@[simp] theorem E.g_XMNegativePi_val : (g_XMNegativePi : V4 E) = ⟨E.num (-13176795 / 4194304), E.num (-13176795 / 4194304), E.num (-13176795 / 4194304), E.num (-13176795 / 4194304)⟩ := by simp [g_XMNegativePi]
@[simp] theorem E.g_XMHalfPi_val : (g_XMHalfPi : V4 E) = ⟨E.num (13176795 / 8388608), E.num (13176795 / 8388608), E.num (13176795 / 8388608), E.num (13176795 / 8388608)⟩ := by simp [g_XMHalfPi]
@[simp] theorem E.g_XMPi_val : (g_XMPi : V4 E) = ⟨E.num (13176795 / 4194304), E.num (13176795 / 4194304), E.num (13176795 / 4194304), E.num (13176795 / 4194304)⟩ := by simp [g_XMPi]
@[simp] theorem E.g_XMReciprocalPi_val : (g_XMReciprocalPi : V4 E) = ⟨E.num (10680707 / 33554432), E.num (10680707 / 33554432), E.num (10680707 / 33554432), E.num (10680707 / 33554432)⟩ := by simp [g_XMReciprocalPi]
@[simp] theorem E.g_XMTwoPi_val : (g_XMTwoPi : V4 E) = ⟨E.num (13176795 / 2097152), E.num (13176795 / 2097152), E.num (13176795 / 2097152), E.num (13176795 / 2097152)⟩ := by simp [g_XMTwoPi]
@[simp] theorem E.g_XMReciprocalTwoPi_val : (g_XMReciprocalTwoPi : V4 E) = ⟨E.num (10680707 / 67108864), E.num (10680707 / 67108864), E.num (10680707 / 67108864), E.num (10680707 / 67108864)⟩ := by simp [g_XMReciprocalTwoPi]
@[simp] theorem E.g_XMEpsilon_val : (g_XMEpsilon : V4 E) = ⟨E.num (1 / 8388608), E.num (1 / 8388608), E.num (1 / 8388608), E.num (1 / 8388608)⟩ := by simp [g_XMEpsilon]
@[simp] theorem E.g_XMInfinity_val : (g_XMInfinity : V4 E) = ⟨E.posInf, E.posInf, E.posInf, E.posInf⟩ := by simp [g_XMInfinity]
@[simp] theorem E.g_XMQNaN_val : (g_XMQNaN : V4 E) = ⟨E.nan, E.nan, E.nan, E.nan⟩ := by simp [g_XMQNaN]
@[simp] theorem E.g_XMQNaNTest_val : (g_XMQNaNTest : V4 E) = ⟨E.num (8388607 / 2^149), E.num (8388607 / 2^149), E.num (8388607 / 2^149), E.num (8388607 / 2^149)⟩ := by simp [g_XMQNaNTest]
@[simp] theorem E.g_XMAbsMask_val : (g_XMAbsMask : V4 E) = ⟨E.absMask, E.absMask, E.absMask, E.absMask⟩ := by simp [g_XMAbsMask]
@[simp] theorem E.g_XMFltMin_val : (g_XMFltMin : V4 E) = ⟨E.num (1 / 85070591730234615865843651857942052864), E.num (1 / 85070591730234615865843651857942052864), E.num (1 / 85070591730234615865843651857942052864), E.num (1 / 85070591730234615865843651857942052864)⟩ := by simp [g_XMFltMin]
@[simp] theorem E.g_XMFltMax_val : (g_XMFltMax : V4 E) = ⟨E.num 340282346638528859811704183484516925440, E.num 340282346638528859811704183484516925440, E.num 340282346638528859811704183484516925440, E.num 340282346638528859811704183484516925440⟩ := by simp [g_XMFltMax]
@[simp] theorem E.g_XMNegOneMask_val : (g_XMNegOneMask : V4 E) = ⟨E.ones, E.ones, E.ones, E.ones⟩ := by simp [g_XMNegOneMask]
@[simp] theorem E.g_XMMaskA8R8G8B8_val : (g_XMMaskA8R8G8B8 : V4 E) = ⟨E.num (255 / 10889035741470030830827987437816582766592), E.num (65280 / 2^149), E.num (255 / 2^149), E.num (-170141183460469231731687303715884105728)⟩ := by simp [g_XMMaskA8R8G8B8]
@[simp] theorem E.g_XMFlipA8R8G8B8_val : (g_XMFlipA8R8G8B8 : V4 E) = ⟨E.num 0, E.num 0, E.num 0, E.negZero⟩ := by simp [g_XMFlipA8R8G8B8]
@[simp] theorem E.g_XMFixAA8R8G8B8_val : (g_XMFixAA8R8G8B8 : V4 E) = ⟨E.num 0, E.num 0, E.num 0, E.num 2147483648⟩ := by simp [g_XMFixAA8R8G8B8]
@[simp] theorem E.g_XMNormalizeA8R8G8B8_val : (g_XMNormalizeA8R8G8B8 : V4 E) = ⟨E.num (8421505 / 140737488355328), E.num (8421505 / 549755813888), E.num (8421505 / 2147483648), E.num (8421505 / 36028797018963968)⟩ := by simp [g_XMNormalizeA8R8G8B8]
@[simp] theorem E.g_XMMaskA2B10G10R10_val : (g_XMMaskA2B10G10R10 : V4 E) = ⟨E.num (1023 / 2^149), E.num (1047552 / 2^149), E.num (15 / 8), E.num (-2)⟩ := by simp [g_XMMaskA2B10G10R10]
@[simp] theorem E.g_XMFlipA2B10G10R10_val : (g_XMFlipA2B10G10R10 : V4 E) = ⟨E.num (512 / 2^149), E.num (524288 / 2^149), E.num (1 / 9223372036854775808), E.negZero⟩ := by simp [g_XMFlipA2B10G10R10]
@[simp] theorem E.g_XMFixAA2B10G10R10_val : (g_XMFixAA2B10G10R10 : V4 E) = ⟨E.num (-512), E.num (-524288), E.num (-536870912), E.num 2147483648⟩ := by simp [g_XMFixAA2B10G10R10]
@[simp] theorem E.g_XMNormalizeA2B10G10R10_val : (g_XMNormalizeA2B10G10R10 : V4 E) = ⟨E.num (262657 / 134217728), E.num (262657 / 137438953472), E.num (262657 / 140737488355328), E.num (11184811 / 36028797018963968)⟩ := by simp [g_XMNormalizeA2B10G10R10]
@[simp] theorem E.g_XMMaskX16Y16_val : (g_XMMaskX16Y16 : V4 E) = ⟨E.num (65535 / 2^149), E.nan, E.num 0, E.num 0⟩ := by simp [g_XMMaskX16Y16]
@[simp] theorem E.g_XMFlipX16Y16_val : (g_XMFlipX16Y16 : V4 E) = ⟨E.num (32768 / 2^149), E.num 0, E.num 0, E.num 0⟩ := by simp [g_XMFlipX16Y16]
@[simp] theorem E.g_XMFixX16Y16_val : (g_XMFixX16Y16 : V4 E) = ⟨E.num (-32768), E.num 0, E.num 0, E.num 0⟩ := by simp [g_XMFixX16Y16]
@[simp] theorem E.g_XMNormalizeX16Y16_val : (g_XMNormalizeX16Y16 : V4 E) = ⟨E.num (32769 / 1073741824), E.num (32769 / 70368744177664), E.num 0, E.num 0⟩ := by simp [g_XMNormalizeX16Y16]
@[simp] theorem E.g_XMMaskX16Y16Z16W16_val : (g_XMMaskX16Y16Z16W16 : V4 E) = ⟨E.num (65535 / 2^149), E.num (65535 / 2^149), E.nan, E.nan⟩ := by simp [g_XMMaskX16Y16Z16W16]
@[simp] theorem E.g_XMFlipX16Y16Z16W16_val : (g_XMFlipX16Y16Z16W16 : V4 E) = ⟨E.num (32768 / 2^149), E.num (32768 / 2^149), E.num 0, E.num 0⟩ := by simp [g_XMFlipX16Y16Z16W16]
@[simp] theorem E.g_XMFixX16Y16Z16W16_val : (g_XMFixX16Y16Z16W16 : V4 E) = ⟨E.num (-32768), E.num (-32768), E.num 0, E.num 0⟩ := by simp [g_XMFixX16Y16Z16W16]
@[simp] theorem E.g_XMNormalizeX16Y16Z16W16_val : (g_XMNormalizeX16Y16Z16W16 : V4 E) = ⟨E.num (32769 / 1073741824), E.num (32769 / 1073741824), E.num (32769 / 70368744177664), E.num (32769 / 70368744177664)⟩ := by simp [g_XMNormalizeX16Y16Z16W16]
@[simp] theorem E.g_XMNoFraction_val : (g_XMNoFraction : V4 E) = ⟨E.num 8388608, E.num 8388608, E.num 8388608, E.num 8388608⟩ := by simp [g_XMNoFraction]
@[simp] theorem E.g_XMMaskByte_val : (g_XMMaskByte : V4 E) = ⟨E.num (255 / 2^149), E.num (255 / 2^149), E.num (255 / 2^149), E.num (255 / 2^149)⟩ := by simp [g_XMMaskByte]
@[simp] theorem E.g_XMNegateX_val : (g_XMNegateX : V4 E) = ⟨E.num (-1), E.num 1, E.num 1, E.num 1⟩ := by simp [g_XMNegateX]
@[simp] theorem E.g_XMNegateY_val : (g_XMNegateY : V4 E) = ⟨E.num 1, E.num (-1), E.num 1, E.num 1⟩ := by simp [g_XMNegateY]
@[simp] theorem E.g_XMNegateZ_val : (g_XMNegateZ : V4 E) = ⟨E.num 1, E.num 1, E.num (-1), E.num 1⟩ := by simp [g_XMNegateZ]
@[simp] theorem E.g_XMNegateW_val : (g_XMNegateW : V4 E) = ⟨E.num 1, E.num 1, E.num 1, E.num (-1)⟩ := by simp [g_XMNegateW]
@[simp] theorem E.g_XMSelect0101_val : (g_XMSelect0101 : V4 E) = ⟨E.num 0, E.ones, E.num 0, E.ones⟩ := by simp [g_XMSelect0101]
@[simp] theorem E.g_XMSelect1010_val : (g_XMSelect1010 : V4 E) = ⟨E.ones, E.num 0, E.ones, E.num 0⟩ := by simp [g_XMSelect1010]
@[simp] theorem E.g_XMOneHalfMinusEpsilon_val : (g_XMOneHalfMinusEpsilon : V4 E) = ⟨E.num (16777213 / 33554432), E.num (16777213 / 33554432), E.num (16777213 / 33554432), E.num (16777213 / 33554432)⟩ := by simp [g_XMOneHalfMinusEpsilon]
@[simp] theorem E.g_XMSelect1000_val : (g_XMSelect1000 : V4 E) = ⟨E.ones, E.num 0, E.num 0, E.num 0⟩ := by simp [g_XMSelect1000]
@[simp] theorem E.g_XMSelect1100_val : (g_XMSelect1100 : V4 E) = ⟨E.ones, E.ones, E.num 0, E.num 0⟩ := by simp [g_XMSelect1100]
@[simp] theorem E.g_XMSelect1110_val : (g_XMSelect1110 : V4 E) = ⟨E.ones, E.ones, E.ones, E.num 0⟩ := by simp [g_XMSelect1110]
@[simp] theorem E.g_XMSelect1011_val : (g_XMSelect1011 : V4 E) = ⟨E.ones, E.num 0, E.ones, E.ones⟩ := by simp [g_XMSelect1011]
@[simp] theorem E.g_XMFixupY16_val : (g_XMFixupY16 : V4 E) = ⟨E.num 1, E.num (1 / 65536), E.num 0, E.num 0⟩ := by simp [g_XMFixupY16]
@[simp] theorem E.g_XMFixupY16W16_val : (g_XMFixupY16W16 : V4 E) = ⟨E.num 1, E.num 1, E.num (1 / 65536), E.num (1 / 65536)⟩ := by simp [g_XMFixupY16W16]
@[simp] theorem E.g_XMFlipY_val : (g_XMFlipY : V4 E) = ⟨E.num 0, E.negZero, E.num 0, E.num 0⟩ := by simp [g_XMFlipY]
@[simp] theorem E.g_XMFlipZ_val : (g_XMFlipZ : V4 E) = ⟨E.num 0, E.num 0, E.negZero, E.num 0⟩ := by simp [g_XMFlipZ]
@[simp] theorem E.g_XMFlipW_val : (g_XMFlipW : V4 E) = ⟨E.num 0, E.num 0, E.num 0, E.negZero⟩ := by simp [g_XMFlipW]
@[simp] theorem E.g_XMFlipYZ_val : (g_XMFlipYZ : V4 E) = ⟨E.num 0, E.negZero, E.negZero, E.num 0⟩ := by simp [g_XMFlipYZ]
@[simp] theorem E.g_XMFlipZW_val : (g_XMFlipZW : V4 E) = ⟨E.num 0, E.num 0, E.negZero, E.negZero⟩ := by simp [g_XMFlipZW]
@[simp] theorem E.g_XMFlipYW_val : (g_XMFlipYW : V4 E) = ⟨E.num 0, E.negZero, E.num 0, E.negZero⟩ := by simp [g_XMFlipYW]
@[simp] theorem E.g_XMMaskDec4_val : (g_XMMaskDec4 : V4 E) = ⟨E.num (1023 / 2^149), E.num (1047552 / 2^149), E.num (15 / 8), E.num (-2)⟩ := by simp [g_XMMaskDec4]
@[simp] theorem E.g_XMXorDec4_val : (g_XMXorDec4 : V4 E) = ⟨E.num (512 / 2^149), E.num (524288 / 2^149), E.num (1 / 9223372036854775808), E.num 0⟩ := by simp [g_XMXorDec4]
@[simp] theorem E.g_XMAddUDec4_val : (g_XMAddUDec4 : V4 E) = ⟨E.num 0, E.num 0, E.num 0, E.num 2147483648⟩ := by simp [g_XMAddUDec4]
@[simp] theorem E.g_XMAddDec4_val : (g_XMAddDec4 : V4 E) = ⟨E.num (-512), E.num (-524288), E.num (-536870912), E.num 0⟩ := by simp [g_XMAddDec4]
@[simp] theorem E.g_XMMulDec4_val : (g_XMMulDec4 : V4 E) = ⟨E.num 1, E.num (1 / 1024), E.num (1 / 1048576), E.num (1 / 1073741824)⟩ := by simp [g_XMMulDec4]
@[simp] theorem E.g_XMMaskByte4_val : (g_XMMaskByte4 : V4 E) = ⟨E.num (255 / 2^149), E.num (65280 / 2^149), E.num (255 / 10889035741470030830827987437816582766592), E.num (-170141183460469231731687303715884105728)⟩ := by simp [g_XMMaskByte4]
@[simp] theorem E.g_XMXorByte4_val : (g_XMXorByte4 : V4 E) = ⟨E.num (128 / 2^149), E.num (32768 / 2^149), E.num (1 / 85070591730234615865843651857942052864), E.num 0⟩ := by simp [g_XMXorByte4]
@[simp] theorem E.g_XMAddByte4_val : (g_XMAddByte4 : V4 E) = ⟨E.num (-128), E.num (-32768), E.num (-8388608), E.num 0⟩ := by simp [g_XMAddByte4]
@[simp] theorem E.g_XMFixUnsigned_val : (g_XMFixUnsigned : V4 E) = ⟨E.num 2147483648, E.num 2147483648, E.num 2147483648, E.num 2147483648⟩ := by simp [g_XMFixUnsigned]
@[simp] theorem E.g_XMMaxInt_val : (g_XMMaxInt : V4 E) = ⟨E.num 2147483520, E.num 2147483520, E.num 2147483520, E.num 2147483520⟩ := by simp [g_XMMaxInt]
@[simp] theorem E.g_XMMaxUInt_val : (g_XMMaxUInt : V4 E) = ⟨E.num 4294967040, E.num 4294967040, E.num 4294967040, E.num 4294967040⟩ := by simp [g_XMMaxUInt]
@[simp] theorem E.g_XMUnsignedFix_val : (g_XMUnsignedFix : V4 E) = ⟨E.num 2147483648, E.num 2147483648, E.num 2147483648, E.num 2147483648⟩ := by simp [g_XMUnsignedFix]
@[simp] theorem E.g_XMsrgbScale_val : (g_XMsrgbScale : V4 E) = ⟨E.num (6773801 / 524288), E.num (6773801 / 524288), E.num (6773801 / 524288), E.num 1⟩ := by simp [g_XMsrgbScale]
@[simp] theorem E.g_XMsrgbA_val : (g_XMsrgbA : V4 E) = ⟨E.num (7381975 / 134217728), E.num (7381975 / 134217728), E.num (7381975 / 134217728), E.num 0⟩ := by simp [g_XMsrgbA]
@[simp] theorem E.g_XMsrgbA1_val : (g_XMsrgbA1 : V4 E) = ⟨E.num (8849981 / 8388608), E.num (8849981 / 8388608), E.num (8849981 / 8388608), E.num 1⟩ := by simp [g_XMsrgbA1]
@[simp] theorem E.g_XMExponentBias_val : (g_XMExponentBias : V4 E) = ⟨E.num (127 / 2^149), E.num (127 / 2^149), E.num (127 / 2^149), E.num (127 / 2^149)⟩ := by simp [g_XMExponentBias]
@[simp] theorem E.g_XMSubnormalExponent_val : (g_XMSubnormalExponent : V4 E) = ⟨E.nan, E.nan, E.nan, E.nan⟩ := by simp [g_XMSubnormalExponent]
@[simp] theorem E.g_XMNumTrailing_val : (g_XMNumTrailing : V4 E) = ⟨E.num (23 / 2^149), E.num (23 / 2^149), E.num (23 / 2^149), E.num (23 / 2^149)⟩ := by simp [g_XMNumTrailing]
@[simp] theorem E.g_XMMinNormal_val : (g_XMMinNormal : V4 E) = ⟨E.num (1 / 85070591730234615865843651857942052864), E.num (1 / 85070591730234615865843651857942052864), E.num (1 / 85070591730234615865843651857942052864), E.num (1 / 85070591730234615865843651857942052864)⟩ := by simp [g_XMMinNormal]
@[simp] theorem E.g_XMNegInfinity_val : (g_XMNegInfinity : V4 E) = ⟨E.negInf, E.negInf, E.negInf, E.negInf⟩ := by simp [g_XMNegInfinity]
@[simp] theorem E.g_XMNegQNaN_val : (g_XMNegQNaN : V4 E) = ⟨E.nan, E.nan, E.nan, E.nan⟩ := by simp [g_XMNegQNaN]
@[simp] theorem E.g_XMBin128_val : (g_XMBin128 : V4 E) = ⟨E.num 128, E.num 128, E.num 128, E.num 128⟩ := by simp [g_XMBin128]
@[simp] theorem E.g_XMBinNeg150_val : (g_XMBinNeg150 : V4 E) = ⟨E.num (-150), E.num (-150), E.num (-150), E.num (-150)⟩ := by simp [g_XMBinNeg150]
@[simp] theorem E.g_XM253_val : (g_XM253 : V4 E) = ⟨E.num (253 / 2^149), E.num (253 / 2^149), E.num (253 / 2^149), E.num (253 / 2^149)⟩ := by simp [g_XM253]
@[simp] theorem E.g_XMExpEst1_val : (g_XMExpEst1 : V4 E) = ⟨E.num (-1453635 / 2097152), E.num (-1453635 / 2097152), E.num (-1453635 / 2097152), E.num (-1453635 / 2097152)⟩ := by simp [g_XMExpEst1]
@[simp] theorem E.g_XMExpEst2_val : (g_XMExpEst2 : V4 E) = ⟨E.num (16121325 / 67108864), E.num (16121325 / 67108864), E.num (16121325 / 67108864), E.num (16121325 / 67108864)⟩ := by simp [g_XMExpEst2]
@[simp] theorem E.g_XMExpEst3_val : (g_XMExpEst3 : V4 E) = ⟨E.num (-7449573 / 134217728), E.num (-7449573 / 134217728), E.num (-7449573 / 134217728), E.num (-7449573 / 134217728)⟩ := by simp [g_XMExpEst3]
@[simp] theorem E.g_XMExpEst4_val : (g_XMExpEst4 : V4 E) = ⟨E.num (2581269 / 268435456), E.num (2581269 / 268435456), E.num (2581269 / 268435456), E.num (2581269 / 268435456)⟩ := by simp [g_XMExpEst4]
@[simp] theorem E.g_XMExpEst5_val : (g_XMExpEst5 : V4 E) = ⟨E.num (-2852373 / 2147483648), E.num (-2852373 / 2147483648), E.num (-2852373 / 2147483648), E.num (-2852373 / 2147483648)⟩ := by simp [g_XMExpEst5]
@[simp] theorem E.g_XMExpEst6_val : (g_XMExpEst6 : V4 E) = ⟨E.num (10135511 / 68719476736), E.num (10135511 / 68719476736), E.num (10135511 / 68719476736), E.num (10135511 / 68719476736)⟩ := by simp [g_XMExpEst6]
@[simp] theorem E.g_XMExpEst7_val : (g_XMExpEst7 : V4 E) = ⟨E.num (-11944545 / 1099511627776), E.num (-11944545 / 1099511627776), E.num (-11944545 / 1099511627776), E.num (-11944545 / 1099511627776)⟩ := by simp [g_XMExpEst7]
@[simp] theorem E.g_XMLogEst0_val : (g_XMLogEst0 : V4 E) = ⟨E.num (6051093 / 4194304), E.num (6051093 / 4194304), E.num (6051093 / 4194304), E.num (6051093 / 4194304)⟩ := by simp [g_XMLogEst0]
@[simp] theorem E.g_XMLogEst1_val : (g_XMLogEst1 : V4 E) = ⟨E.num (-12100433 / 16777216), E.num (-12100433 / 16777216), E.num (-12100433 / 16777216), E.num (-12100433 / 16777216)⟩ := by simp [g_XMLogEst1]
@[simp] theorem E.g_XMLogEst2_val : (g_XMLogEst2 : V4 E) = ⟨E.num (8042729 / 16777216), E.num (8042729 / 16777216), E.num (8042729 / 16777216), E.num (8042729 / 16777216)⟩ := by simp [g_XMLogEst2]
@[simp] theorem E.g_XMLogEst3_val : (g_XMLogEst3 : V4 E) = ⟨E.num (-5876975 / 16777216), E.num (-5876975 / 16777216), E.num (-5876975 / 16777216), E.num (-5876975 / 16777216)⟩ := by simp [g_XMLogEst3]
@[simp] theorem E.g_XMLogEst4_val : (g_XMLogEst4 : V4 E) = ⟨E.num (16682593 / 67108864), E.num (16682593 / 67108864), E.num (16682593 / 67108864), E.num (16682593 / 67108864)⟩ := by simp [g_XMLogEst4]
@[simp] theorem E.g_XMLogEst5_val : (g_XMLogEst5 : V4 E) = ⟨E.num (-9777761 / 67108864), E.num (-9777761 / 67108864), E.num (-9777761 / 67108864), E.num (-9777761 / 67108864)⟩ := by simp [g_XMLogEst5]
@[simp] theorem E.g_XMLogEst6_val : (g_XMLogEst6 : V4 E) = ⟨E.num (15340549 / 268435456), E.num (15340549 / 268435456), E.num (15340549 / 268435456), E.num (15340549 / 268435456)⟩ := by simp [g_XMLogEst6]
@[simp] theorem E.g_XMLogEst7_val : (g_XMLogEst7 : V4 E) = ⟨E.num (-11358041 / 1073741824), E.num (-11358041 / 1073741824), E.num (-11358041 / 1073741824), E.num (-11358041 / 1073741824)⟩ := by simp [g_XMLogEst7]
@[simp] theorem E.g_XMLgE_val : (g_XMLgE : V4 E) = ⟨E.num (12102203 / 8388608), E.num (12102203 / 8388608), E.num (12102203 / 8388608), E.num (12102203 / 8388608)⟩ := by simp [g_XMLgE]
@[simp] theorem E.g_XMInvLgE_val : (g_XMInvLgE : V4 E) = ⟨E.num (1453635 / 2097152), E.num (1453635 / 2097152), E.num (1453635 / 2097152), E.num (1453635 / 2097152)⟩ := by simp [g_XMInvLgE]
@[simp] theorem E.g_UByteMax_val : (g_UByteMax : V4 E) = ⟨E.num 255, E.num 255, E.num 255, E.num 255⟩ := by simp [g_UByteMax]
@[simp] theorem E.g_ByteMin_val : (g_ByteMin : V4 E) = ⟨E.num (-127), E.num (-127), E.num (-127), E.num (-127)⟩ := by simp [g_ByteMin]
@[simp] theorem E.g_ByteMax_val : (g_ByteMax : V4 E) = ⟨E.num 127, E.num 127, E.num 127, E.num 127⟩ := by simp [g_ByteMax]
@[simp] theorem E.g_ShortMin_val : (g_ShortMin : V4 E) = ⟨E.num (-32767), E.num (-32767), E.num (-32767), E.num (-32767)⟩ := by simp [g_ShortMin]
@[simp] theorem E.g_ShortMax_val : (g_ShortMax : V4 E) = ⟨E.num 32767, E.num 32767, E.num 32767, E.num 32767⟩ := by simp [g_ShortMax]
@[simp] theorem E.g_UShortMax_val : (g_UShortMax : V4 E) = ⟨E.num 65535, E.num 65535, E.num 65535, E.num 65535⟩ := by simp [g_UShortMax]

end DXM
