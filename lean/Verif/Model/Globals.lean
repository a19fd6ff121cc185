import Verif.Basic

/-
src/globals.rs: the constant vectors, as bit patterns.  Decimal literals are shown in the comment; their
binary32 patterns (round to nearest even) are checked in Props/Constants.lean.
-/

namespace DXM
open Lane
variable {α : Type} [Lane α]

/-- src/lib.rs:1362 `3.141592654` -/
def XM_PI : α := ofBits 0x40490FDB#32
/-- src/lib.rs:1363 `6.283185307` -/
def XM_2PI : α := ofBits 0x40C90FDB#32
/-- src/lib.rs:1364 `0.318309886` -/
def XM_1DIVPI : α := ofBits 0x3EA2F983#32
/-- src/lib.rs:1365 `0.159154943` -/
def XM_1DIV2PI : α := ofBits 0x3E22F983#32
/-- src/lib.rs:1366 `1.570796327` -/
def XM_PIDIV2 : α := ofBits 0x3FC90FDB#32
/-- src/lib.rs:1367 `0.785398163` -/
def XM_PIDIV4 : α := ofBits 0x3F490FDB#32

/-- src/globals.rs:8 `[-0.16666667, 0.0083333310, -0.00019840874, 2.7525562e-06]` -/
def g_XMSinCoefficients0 : V4 α := ⟨ofBits 0xBE2AAAAB#32, ofBits 0x3C088886#32, ofBits 0xB9500BF1#32, ofBits 0x3638B88E#32⟩
/-- src/globals.rs:9 `[-2.3889859e-08, -0.16665852, 0.0083139502, -0.00018524670]` -/
def g_XMSinCoefficients1 : V4 α := ⟨ofBits 0xB2CD365B#32, ofBits 0xBE2AA888#32, ofBits 0x3C08373C#32, ofBits 0xB9423EC8#32⟩
/-- src/globals.rs:10 `[-0.5, 0.041666638, -0.0013888378, 2.4760495e-05]` -/
def g_XMCosCoefficients0 : V4 α := ⟨ofBits 0xBF000000#32, ofBits 0x3D2AAAA3#32, ofBits 0xBAB609AA#32, ofBits 0x37CFB4C2#32⟩
/-- src/globals.rs:11 `[-2.6051615e-07, -0.49992746, 0.041493919, -0.0012712436]` -/
def g_XMCosCoefficients1 : V4 α := ⟨ofBits 0xB48BDD11#32, ofBits 0xBEFFF67E#32, ofBits 0x3D29F587#32, ofBits 0xBAA69FDB#32⟩
/-- src/globals.rs:12 `[1.0, 0.333333333, 0.133333333, 5.396825397e-2]` -/
def g_XMTanCoefficients0 : V4 α := ⟨ofBits 0x3F800000#32, ofBits 0x3EAAAAAB#32, ofBits 0x3E088889#32, ofBits 0x3D5D0DD1#32⟩
/-- src/globals.rs:13 `[2.186948854e-2, 8.863235530e-3, 3.592128167e-3, 1.455834485e-3]` -/
def g_XMTanCoefficients1 : V4 α := ⟨ofBits 0x3CB327A4#32, ofBits 0x3C11371B#32, ofBits 0x3B6B69E9#32, ofBits 0x3ABED1B3#32⟩
/-- src/globals.rs:14 `[5.900274264e-4, 2.391290764e-4, 9.691537707e-5, 3.927832950e-5]` -/
def g_XMTanCoefficients2 : V4 α := ⟨ofBits 0x3A1AAC12#32, ofBits 0x397ABEB9#32, ofBits 0x38CB3F0C#32, ofBits 0x3824BEC9#32⟩
/-- src/globals.rs:15 `[1.5707963050, -0.2145988016, 0.0889789874, -0.0501743046]` -/
def g_XMArcCoefficients0 : V4 α := ⟨ofBits 0x3FC90FDA#32, ofBits 0xBE5BBFCA#32, ofBits 0x3DB63A9E#32, ofBits 0xBD4D8392#32⟩
/-- src/globals.rs:16 `[0.0308918810, -0.0170881256, 0.0066700901, -0.0012624911]` -/
def g_XMArcCoefficients1 : V4 α := ⟨ofBits 0x3CFD10F8#32, ofBits 0xBC8BFC66#32, ofBits 0x3BDA90C5#32, ofBits 0xBAA57A2C#32⟩
/-- src/globals.rs:17 `[-0.3333314528, 0.1999355085, -0.1420889944, 0.1065626393]` -/
def g_XMATanCoefficients0 : V4 α := ⟨ofBits 0xBEAAAA6C#32, ofBits 0x3E4CBBE5#32, ofBits 0xBE117FC7#32, ofBits 0x3DDA3D83#32⟩
/-- src/globals.rs:18 `[-0.0752896400, 0.0429096138, -0.0161657367, 0.0028662257]` -/
def g_XMATanCoefficients1 : V4 α := ⟨ofBits 0xBD9A3174#32, ofBits 0x3D2FC1FE#32, ofBits 0xBC846E02#32, ofBits 0x3B3BD74A#32⟩
/-- src/globals.rs:19 `[0.999866, 0.999866, 0.999866, 0.999866]` -/
def g_XMATanEstCoefficients0 : V4 α := ⟨ofBits 0x3F7FF738#32, ofBits 0x3F7FF738#32, ofBits 0x3F7FF738#32, ofBits 0x3F7FF738#32⟩
/-- src/globals.rs:20 `[-0.3302995, 0.180141, -0.085133, 0.0208351]` -/
def g_XMATanEstCoefficients1 : V4 α := ⟨ofBits 0xBEA91D04#32, ofBits 0x3E3876E2#32, ofBits 0xBDAE5A36#32, ofBits 0x3CAAAE5F#32⟩
/-- src/globals.rs:21 `[2.484, -1.954923183e-1, 2.467401101, XM_1DIVPI]` -/
def g_XMTanEstCoefficients : V4 α := ⟨ofBits 0x401EF9DB#32, ofBits 0xBE482F23#32, ofBits 0x401DE9E6#32, ofBits 0x3EA2F983#32⟩
/-- src/globals.rs:22 `[1.5707288, -0.2121144, 0.0742610, -0.0187293]` -/
def g_XMArcEstCoefficients : V4 α := ⟨ofBits 0x3FC90DA4#32, ofBits 0xBE593484#32, ofBits 0x3D981627#32, ofBits 0xBC996E30#32⟩
/-- src/globals.rs:23 `[XM_PI, XM_2PI, XM_1DIVPI, XM_1DIV2PI]` -/
def g_XMPiConstants0 : V4 α := ⟨ofBits 0x40490FDB#32, ofBits 0x40C90FDB#32, ofBits 0x3EA2F983#32, ofBits 0x3E22F983#32⟩
/-- src/globals.rs:24 `[1.0, 0.0, 0.0, 0.0]` -/
def g_XMIdentityR0 : V4 α := ⟨ofBits 0x3F800000#32, ofBits 0x00000000#32, ofBits 0x00000000#32, ofBits 0x00000000#32⟩
/-- src/globals.rs:25 `[0.0, 1.0, 0.0, 0.0]` -/
def g_XMIdentityR1 : V4 α := ⟨ofBits 0x00000000#32, ofBits 0x3F800000#32, ofBits 0x00000000#32, ofBits 0x00000000#32⟩
/-- src/globals.rs:26 `[0.0, 0.0, 1.0, 0.0]` -/
def g_XMIdentityR2 : V4 α := ⟨ofBits 0x00000000#32, ofBits 0x00000000#32, ofBits 0x3F800000#32, ofBits 0x00000000#32⟩
/-- src/globals.rs:27 `[0.0, 0.0, 0.0, 1.0]` -/
def g_XMIdentityR3 : V4 α := ⟨ofBits 0x00000000#32, ofBits 0x00000000#32, ofBits 0x00000000#32, ofBits 0x3F800000#32⟩
/-- src/globals.rs:28 `[-1.0, 0.0, 0.0, 0.0]` -/
def g_XMNegIdentityR0 : V4 α := ⟨ofBits 0xBF800000#32, ofBits 0x00000000#32, ofBits 0x00000000#32, ofBits 0x00000000#32⟩
/-- src/globals.rs:29 `[0.0, -1.0, 0.0, 0.0]` -/
def g_XMNegIdentityR1 : V4 α := ⟨ofBits 0x00000000#32, ofBits 0xBF800000#32, ofBits 0x00000000#32, ofBits 0x00000000#32⟩
/-- src/globals.rs:30 `[0.0, 0.0, -1.0, 0.0]` -/
def g_XMNegIdentityR2 : V4 α := ⟨ofBits 0x00000000#32, ofBits 0x00000000#32, ofBits 0xBF800000#32, ofBits 0x00000000#32⟩
/-- src/globals.rs:31 `[0.0, 0.0, 0.0, -1.0]` -/
def g_XMNegIdentityR3 : V4 α := ⟨ofBits 0x00000000#32, ofBits 0x00000000#32, ofBits 0x00000000#32, ofBits 0xBF800000#32⟩
/-- src/globals.rs:32 `[0x80000000, 0x80000000, 0x80000000, 0x80000000]` -/
def g_XMNegativeZero : V4 α := ⟨ofBits 0x80000000#32, ofBits 0x80000000#32, ofBits 0x80000000#32, ofBits 0x80000000#32⟩
/-- src/globals.rs:33 `[0x80000000, 0x80000000, 0x80000000, 0x00000000]` -/
def g_XMNegate3 : V4 α := ⟨ofBits 0x80000000#32, ofBits 0x80000000#32, ofBits 0x80000000#32, ofBits 0x00000000#32⟩
/-- src/globals.rs:34 `[0xFFFFFFFF, 0xFFFFFFFF, 0x00000000, 0x00000000]` -/
def g_XMMaskXY : V4 α := ⟨ofBits 0xFFFFFFFF#32, ofBits 0xFFFFFFFF#32, ofBits 0x00000000#32, ofBits 0x00000000#32⟩
/-- src/globals.rs:35 `[0xFFFFFFFF, 0xFFFFFFFF, 0xFFFFFFFF, 0x00000000]` -/
def g_XMMask3 : V4 α := ⟨ofBits 0xFFFFFFFF#32, ofBits 0xFFFFFFFF#32, ofBits 0xFFFFFFFF#32, ofBits 0x00000000#32⟩
/-- src/globals.rs:36 `[0xFFFFFFFF, 0x00000000, 0x00000000, 0x00000000]` -/
def g_XMMaskX : V4 α := ⟨ofBits 0xFFFFFFFF#32, ofBits 0x00000000#32, ofBits 0x00000000#32, ofBits 0x00000000#32⟩
/-- src/globals.rs:37 `[0x00000000, 0xFFFFFFFF, 0x00000000, 0x00000000]` -/
def g_XMMaskY : V4 α := ⟨ofBits 0x00000000#32, ofBits 0xFFFFFFFF#32, ofBits 0x00000000#32, ofBits 0x00000000#32⟩
/-- src/globals.rs:38 `[0x00000000, 0x00000000, 0xFFFFFFFF, 0x00000000]` -/
def g_XMMaskZ : V4 α := ⟨ofBits 0x00000000#32, ofBits 0x00000000#32, ofBits 0xFFFFFFFF#32, ofBits 0x00000000#32⟩
/-- src/globals.rs:39 `[0x00000000, 0x00000000, 0x00000000, 0xFFFFFFFF]` -/
def g_XMMaskW : V4 α := ⟨ofBits 0x00000000#32, ofBits 0x00000000#32, ofBits 0x00000000#32, ofBits 0xFFFFFFFF#32⟩
/-- src/globals.rs:40 `[1.0, 1.0, 1.0, 1.0]` -/
def g_XMOne : V4 α := ⟨ofBits 0x3F800000#32, ofBits 0x3F800000#32, ofBits 0x3F800000#32, ofBits 0x3F800000#32⟩
/-- src/globals.rs:41 `[1.0, 1.0, 1.0, 0.0]` -/
def g_XMOne3 : V4 α := ⟨ofBits 0x3F800000#32, ofBits 0x3F800000#32, ofBits 0x3F800000#32, ofBits 0x00000000#32⟩
/-- src/globals.rs:42 `[0.0, 0.0, 0.0, 0.0]` -/
def g_XMZero : V4 α := ⟨ofBits 0x00000000#32, ofBits 0x00000000#32, ofBits 0x00000000#32, ofBits 0x00000000#32⟩
/-- src/globals.rs:43 `[2.0, 2.0, 2.0, 2.0]` -/
def g_XMTwo : V4 α := ⟨ofBits 0x40000000#32, ofBits 0x40000000#32, ofBits 0x40000000#32, ofBits 0x40000000#32⟩
/-- src/globals.rs:44 `[4.0, 4.0, 4.0, 4.0]` -/
def g_XMFour : V4 α := ⟨ofBits 0x40800000#32, ofBits 0x40800000#32, ofBits 0x40800000#32, ofBits 0x40800000#32⟩
/-- src/globals.rs:45 `[6.0, 6.0, 6.0, 6.0]` -/
def g_XMSix : V4 α := ⟨ofBits 0x40C00000#32, ofBits 0x40C00000#32, ofBits 0x40C00000#32, ofBits 0x40C00000#32⟩
/-- src/globals.rs:46 `[-1.0, -1.0, -1.0, -1.0]` -/
def g_XMNegativeOne : V4 α := ⟨ofBits 0xBF800000#32, ofBits 0xBF800000#32, ofBits 0xBF800000#32, ofBits 0xBF800000#32⟩
/-- src/globals.rs:47 `[0.5, 0.5, 0.5, 0.5]` -/
def g_XMOneHalf : V4 α := ⟨ofBits 0x3F000000#32, ofBits 0x3F000000#32, ofBits 0x3F000000#32, ofBits 0x3F000000#32⟩
/-- src/globals.rs:48 `[-0.5, -0.5, -0.5, -0.5]` -/
def g_XMNegativeOneHalf : V4 α := ⟨ofBits 0xBF000000#32, ofBits 0xBF000000#32, ofBits 0xBF000000#32, ofBits 0xBF000000#32⟩
/-- src/globals.rs:49 `[-XM_2PI, -XM_2PI, -XM_2PI, -XM_2PI]` -/
def g_XMNegativeTwoPi : V4 α := ⟨ofBits 0xC0C90FDB#32, ofBits 0xC0C90FDB#32, ofBits 0xC0C90FDB#32, ofBits 0xC0C90FDB#32⟩
/-- src/globals.rs:50 `[-XM_PI, -XM_PI, -XM_PI, -XM_PI]` -/
def g_XMNegativePi : V4 α := ⟨ofBits 0xC0490FDB#32, ofBits 0xC0490FDB#32, ofBits 0xC0490FDB#32, ofBits 0xC0490FDB#32⟩
/-- src/globals.rs:51 `[XM_PIDIV2, XM_PIDIV2, XM_PIDIV2, XM_PIDIV2]` -/
def g_XMHalfPi : V4 α := ⟨ofBits 0x3FC90FDB#32, ofBits 0x3FC90FDB#32, ofBits 0x3FC90FDB#32, ofBits 0x3FC90FDB#32⟩
/-- src/globals.rs:52 `[XM_PI, XM_PI, XM_PI, XM_PI]` -/
def g_XMPi : V4 α := ⟨ofBits 0x40490FDB#32, ofBits 0x40490FDB#32, ofBits 0x40490FDB#32, ofBits 0x40490FDB#32⟩
/-- src/globals.rs:53 `[XM_1DIVPI, XM_1DIVPI, XM_1DIVPI, XM_1DIVPI]` -/
def g_XMReciprocalPi : V4 α := ⟨ofBits 0x3EA2F983#32, ofBits 0x3EA2F983#32, ofBits 0x3EA2F983#32, ofBits 0x3EA2F983#32⟩
/-- src/globals.rs:54 `[XM_2PI, XM_2PI, XM_2PI, XM_2PI]` -/
def g_XMTwoPi : V4 α := ⟨ofBits 0x40C90FDB#32, ofBits 0x40C90FDB#32, ofBits 0x40C90FDB#32, ofBits 0x40C90FDB#32⟩
/-- src/globals.rs:55 `[XM_1DIV2PI, XM_1DIV2PI, XM_1DIV2PI, XM_1DIV2PI]` -/
def g_XMReciprocalTwoPi : V4 α := ⟨ofBits 0x3E22F983#32, ofBits 0x3E22F983#32, ofBits 0x3E22F983#32, ofBits 0x3E22F983#32⟩
/-- src/globals.rs:56 `[1.192092896e-7, 1.192092896e-7, 1.192092896e-7, 1.192092896e-7]` -/
def g_XMEpsilon : V4 α := ⟨ofBits 0x34000000#32, ofBits 0x34000000#32, ofBits 0x34000000#32, ofBits 0x34000000#32⟩
/-- src/globals.rs:57 `[0x7F800000, 0x7F800000, 0x7F800000, 0x7F800000]` -/
def g_XMInfinity : V4 α := ⟨ofBits 0x7F800000#32, ofBits 0x7F800000#32, ofBits 0x7F800000#32, ofBits 0x7F800000#32⟩
/-- src/globals.rs:58 `[0x7FC00000, 0x7FC00000, 0x7FC00000, 0x7FC00000]` -/
def g_XMQNaN : V4 α := ⟨ofBits 0x7FC00000#32, ofBits 0x7FC00000#32, ofBits 0x7FC00000#32, ofBits 0x7FC00000#32⟩
/-- src/globals.rs:59 `[0x007FFFFF, 0x007FFFFF, 0x007FFFFF, 0x007FFFFF]` -/
def g_XMQNaNTest : V4 α := ⟨ofBits 0x007FFFFF#32, ofBits 0x007FFFFF#32, ofBits 0x007FFFFF#32, ofBits 0x007FFFFF#32⟩
/-- src/globals.rs:60 `[0x7FFFFFFF, 0x7FFFFFFF, 0x7FFFFFFF, 0x7FFFFFFF]` -/
def g_XMAbsMask : V4 α := ⟨ofBits 0x7FFFFFFF#32, ofBits 0x7FFFFFFF#32, ofBits 0x7FFFFFFF#32, ofBits 0x7FFFFFFF#32⟩
/-- src/globals.rs:61 `[0x00800000, 0x00800000, 0x00800000, 0x00800000]` -/
def g_XMFltMin : V4 α := ⟨ofBits 0x00800000#32, ofBits 0x00800000#32, ofBits 0x00800000#32, ofBits 0x00800000#32⟩
/-- src/globals.rs:62 `[0x7F7FFFFF, 0x7F7FFFFF, 0x7F7FFFFF, 0x7F7FFFFF]` -/
def g_XMFltMax : V4 α := ⟨ofBits 0x7F7FFFFF#32, ofBits 0x7F7FFFFF#32, ofBits 0x7F7FFFFF#32, ofBits 0x7F7FFFFF#32⟩
/-- src/globals.rs:63 `[0xFFFFFFFF, 0xFFFFFFFF, 0xFFFFFFFF, 0xFFFFFFFF]` -/
def g_XMNegOneMask : V4 α := ⟨ofBits 0xFFFFFFFF#32, ofBits 0xFFFFFFFF#32, ofBits 0xFFFFFFFF#32, ofBits 0xFFFFFFFF#32⟩
/-- src/globals.rs:64 `[0x00FF0000, 0x0000FF00, 0x000000FF, 0xFF000000]` -/
def g_XMMaskA8R8G8B8 : V4 α := ⟨ofBits 0x00FF0000#32, ofBits 0x0000FF00#32, ofBits 0x000000FF#32, ofBits 0xFF000000#32⟩
/-- src/globals.rs:65 `[0x00000000, 0x00000000, 0x00000000, 0x80000000]` -/
def g_XMFlipA8R8G8B8 : V4 α := ⟨ofBits 0x00000000#32, ofBits 0x00000000#32, ofBits 0x00000000#32, ofBits 0x80000000#32⟩
/-- src/globals.rs:66 `[0.0, 0.0, 0.0, float(0x80000000u32)]` -/
def g_XMFixAA8R8G8B8 : V4 α := ⟨ofBits 0x00000000#32, ofBits 0x00000000#32, ofBits 0x00000000#32, ofBits 0x4F000000#32⟩
/-- src/globals.rs:67 `[1.0 / (255.0 * float(0x10000)), 1.0 / (255.0 * float(0x100)), 1.0 / 255.0, 1.0 / (255.0 * float(0x1000000))]` -/
def g_XMNormalizeA8R8G8B8 : V4 α := ⟨ofBits 0x33808081#32, ofBits 0x37808081#32, ofBits 0x3B808081#32, ofBits 0x2F808081#32⟩
/-- src/globals.rs:68 `[0x000003FF, 0x000FFC00, 0x3FF00000, 0xC0000000]` -/
def g_XMMaskA2B10G10R10 : V4 α := ⟨ofBits 0x000003FF#32, ofBits 0x000FFC00#32, ofBits 0x3FF00000#32, ofBits 0xC0000000#32⟩
/-- src/globals.rs:69 `[0x00000200, 0x00080000, 0x20000000, 0x80000000]` -/
def g_XMFlipA2B10G10R10 : V4 α := ⟨ofBits 0x00000200#32, ofBits 0x00080000#32, ofBits 0x20000000#32, ofBits 0x80000000#32⟩
/-- src/globals.rs:70 `[-512.0, -512.0 * float(0x400), -512.0 * float(0x100000), float(0x80000000u32)]` -/
def g_XMFixAA2B10G10R10 : V4 α := ⟨ofBits 0xC4000000#32, ofBits 0xC9000000#32, ofBits 0xCE000000#32, ofBits 0x4F000000#32⟩
/-- src/globals.rs:71 `[1.0 / 511.0, 1.0 / (511.0 * float(0x400)), 1.0 / (511.0 * float(0x100000)), 1.0 / (3.0 * float(0x40000000))]` -/
def g_XMNormalizeA2B10G10R10 : V4 α := ⟨ofBits 0x3B004020#32, ofBits 0x36004020#32, ofBits 0x31004020#32, ofBits 0x2FAAAAAB#32⟩
/-- src/globals.rs:72 `[0x0000FFFF, 0xFFFF0000, 0x00000000, 0x00000000]` -/
def g_XMMaskX16Y16 : V4 α := ⟨ofBits 0x0000FFFF#32, ofBits 0xFFFF0000#32, ofBits 0x00000000#32, ofBits 0x00000000#32⟩
/-- src/globals.rs:73 `[0x00008000, 0x00000000, 0x00000000, 0x00000000]` -/
def g_XMFlipX16Y16 : V4 α := ⟨ofBits 0x00008000#32, ofBits 0x00000000#32, ofBits 0x00000000#32, ofBits 0x00000000#32⟩
/-- src/globals.rs:74 `[-32768.0, 0.0, 0.0, 0.0]` -/
def g_XMFixX16Y16 : V4 α := ⟨ofBits 0xC7000000#32, ofBits 0x00000000#32, ofBits 0x00000000#32, ofBits 0x00000000#32⟩
/-- src/globals.rs:75 `[1.0 / 32767.0, 1.0 / (32767.0 * 65536.0), 0.0, 0.0]` -/
def g_XMNormalizeX16Y16 : V4 α := ⟨ofBits 0x38000100#32, ofBits 0x30000100#32, ofBits 0x00000000#32, ofBits 0x00000000#32⟩
/-- src/globals.rs:76 `[0x0000FFFF, 0x0000FFFF, 0xFFFF0000, 0xFFFF0000]` -/
def g_XMMaskX16Y16Z16W16 : V4 α := ⟨ofBits 0x0000FFFF#32, ofBits 0x0000FFFF#32, ofBits 0xFFFF0000#32, ofBits 0xFFFF0000#32⟩
/-- src/globals.rs:77 `[0x00008000, 0x00008000, 0x00000000, 0x00000000]` -/
def g_XMFlipX16Y16Z16W16 : V4 α := ⟨ofBits 0x00008000#32, ofBits 0x00008000#32, ofBits 0x00000000#32, ofBits 0x00000000#32⟩
/-- src/globals.rs:78 `[-32768.0, -32768.0, 0.0, 0.0]` -/
def g_XMFixX16Y16Z16W16 : V4 α := ⟨ofBits 0xC7000000#32, ofBits 0xC7000000#32, ofBits 0x00000000#32, ofBits 0x00000000#32⟩
/-- src/globals.rs:79 `[1.0 / 32767.0, 1.0 / 32767.0, 1.0 / (32767.0 * 65536.0), 1.0 / (32767.0 * 65536.0)]` -/
def g_XMNormalizeX16Y16Z16W16 : V4 α := ⟨ofBits 0x38000100#32, ofBits 0x38000100#32, ofBits 0x30000100#32, ofBits 0x30000100#32⟩
/-- src/globals.rs:80 `[8388608.0, 8388608.0, 8388608.0, 8388608.0]` -/
def g_XMNoFraction : V4 α := ⟨ofBits 0x4B000000#32, ofBits 0x4B000000#32, ofBits 0x4B000000#32, ofBits 0x4B000000#32⟩
/-- src/globals.rs:81 `[0x000000FF, 0x000000FF, 0x000000FF, 0x000000FF]` -/
def g_XMMaskByte : V4 α := ⟨ofBits 0x000000FF#32, ofBits 0x000000FF#32, ofBits 0x000000FF#32, ofBits 0x000000FF#32⟩
/-- src/globals.rs:82 `[-1.0, 1.0, 1.0, 1.0]` -/
def g_XMNegateX : V4 α := ⟨ofBits 0xBF800000#32, ofBits 0x3F800000#32, ofBits 0x3F800000#32, ofBits 0x3F800000#32⟩
/-- src/globals.rs:83 `[1.0, -1.0, 1.0, 1.0]` -/
def g_XMNegateY : V4 α := ⟨ofBits 0x3F800000#32, ofBits 0xBF800000#32, ofBits 0x3F800000#32, ofBits 0x3F800000#32⟩
/-- src/globals.rs:84 `[1.0, 1.0, -1.0, 1.0]` -/
def g_XMNegateZ : V4 α := ⟨ofBits 0x3F800000#32, ofBits 0x3F800000#32, ofBits 0xBF800000#32, ofBits 0x3F800000#32⟩
/-- src/globals.rs:85 `[1.0, 1.0, 1.0, -1.0]` -/
def g_XMNegateW : V4 α := ⟨ofBits 0x3F800000#32, ofBits 0x3F800000#32, ofBits 0x3F800000#32, ofBits 0xBF800000#32⟩
/-- src/globals.rs:86 `[XM_SELECT_0, XM_SELECT_1, XM_SELECT_0, XM_SELECT_1]` -/
def g_XMSelect0101 : V4 α := ⟨ofBits 0x00000000#32, ofBits 0xFFFFFFFF#32, ofBits 0x00000000#32, ofBits 0xFFFFFFFF#32⟩
/-- src/globals.rs:87 `[XM_SELECT_1, XM_SELECT_0, XM_SELECT_1, XM_SELECT_0]` -/
def g_XMSelect1010 : V4 α := ⟨ofBits 0xFFFFFFFF#32, ofBits 0x00000000#32, ofBits 0xFFFFFFFF#32, ofBits 0x00000000#32⟩
/-- src/globals.rs:88 `[0x3EFFFFFD, 0x3EFFFFFD, 0x3EFFFFFD, 0x3EFFFFFD]` -/
def g_XMOneHalfMinusEpsilon : V4 α := ⟨ofBits 0x3EFFFFFD#32, ofBits 0x3EFFFFFD#32, ofBits 0x3EFFFFFD#32, ofBits 0x3EFFFFFD#32⟩
/-- src/globals.rs:89 `[XM_SELECT_1, XM_SELECT_0, XM_SELECT_0, XM_SELECT_0]` -/
def g_XMSelect1000 : V4 α := ⟨ofBits 0xFFFFFFFF#32, ofBits 0x00000000#32, ofBits 0x00000000#32, ofBits 0x00000000#32⟩
/-- src/globals.rs:90 `[XM_SELECT_1, XM_SELECT_1, XM_SELECT_0, XM_SELECT_0]` -/
def g_XMSelect1100 : V4 α := ⟨ofBits 0xFFFFFFFF#32, ofBits 0xFFFFFFFF#32, ofBits 0x00000000#32, ofBits 0x00000000#32⟩
/-- src/globals.rs:91 `[XM_SELECT_1, XM_SELECT_1, XM_SELECT_1, XM_SELECT_0]` -/
def g_XMSelect1110 : V4 α := ⟨ofBits 0xFFFFFFFF#32, ofBits 0xFFFFFFFF#32, ofBits 0xFFFFFFFF#32, ofBits 0x00000000#32⟩
/-- src/globals.rs:92 `[XM_SELECT_1, XM_SELECT_0, XM_SELECT_1, XM_SELECT_1]` -/
def g_XMSelect1011 : V4 α := ⟨ofBits 0xFFFFFFFF#32, ofBits 0x00000000#32, ofBits 0xFFFFFFFF#32, ofBits 0xFFFFFFFF#32⟩
/-- src/globals.rs:93 `[1.0, 1.0 / 65536.0, 0.0, 0.0]` -/
def g_XMFixupY16 : V4 α := ⟨ofBits 0x3F800000#32, ofBits 0x37800000#32, ofBits 0x00000000#32, ofBits 0x00000000#32⟩
/-- src/globals.rs:94 `[1.0, 1.0, 1.0 / 65536.0, 1.0 / 65536.0]` -/
def g_XMFixupY16W16 : V4 α := ⟨ofBits 0x3F800000#32, ofBits 0x3F800000#32, ofBits 0x37800000#32, ofBits 0x37800000#32⟩
/-- src/globals.rs:95 `[0, 0x80000000, 0, 0]` -/
def g_XMFlipY : V4 α := ⟨ofBits 0x00000000#32, ofBits 0x80000000#32, ofBits 0x00000000#32, ofBits 0x00000000#32⟩
/-- src/globals.rs:96 `[0, 0, 0x80000000, 0]` -/
def g_XMFlipZ : V4 α := ⟨ofBits 0x00000000#32, ofBits 0x00000000#32, ofBits 0x80000000#32, ofBits 0x00000000#32⟩
/-- src/globals.rs:97 `[0, 0, 0, 0x80000000]` -/
def g_XMFlipW : V4 α := ⟨ofBits 0x00000000#32, ofBits 0x00000000#32, ofBits 0x00000000#32, ofBits 0x80000000#32⟩
/-- src/globals.rs:98 `[0, 0x80000000, 0x80000000, 0]` -/
def g_XMFlipYZ : V4 α := ⟨ofBits 0x00000000#32, ofBits 0x80000000#32, ofBits 0x80000000#32, ofBits 0x00000000#32⟩
/-- src/globals.rs:99 `[0, 0, 0x80000000, 0x80000000]` -/
def g_XMFlipZW : V4 α := ⟨ofBits 0x00000000#32, ofBits 0x00000000#32, ofBits 0x80000000#32, ofBits 0x80000000#32⟩
/-- src/globals.rs:100 `[0, 0x80000000, 0, 0x80000000]` -/
def g_XMFlipYW : V4 α := ⟨ofBits 0x00000000#32, ofBits 0x80000000#32, ofBits 0x00000000#32, ofBits 0x80000000#32⟩
/-- src/globals.rs:101 `[0x3FF, 0x3FF << 10, 0x3FF << 20, (0xC0000000u32 as i32)]` -/
def g_XMMaskDec4 : V4 α := ⟨ofBits 0x000003FF#32, ofBits 0x000FFC00#32, ofBits 0x3FF00000#32, ofBits 0xC0000000#32⟩
/-- src/globals.rs:102 `[0x200, 0x200 << 10, 0x200 << 20, 0]` -/
def g_XMXorDec4 : V4 α := ⟨ofBits 0x00000200#32, ofBits 0x00080000#32, ofBits 0x20000000#32, ofBits 0x00000000#32⟩
/-- src/globals.rs:103 `[0.0, 0.0, 0.0, 32768.0 * 65536.0]` -/
def g_XMAddUDec4 : V4 α := ⟨ofBits 0x00000000#32, ofBits 0x00000000#32, ofBits 0x00000000#32, ofBits 0x4F000000#32⟩
/-- src/globals.rs:104 `[-512.0, -512.0 * 1024.0, -512.0 * 1024.0 * 1024.0, 0.0]` -/
def g_XMAddDec4 : V4 α := ⟨ofBits 0xC4000000#32, ofBits 0xC9000000#32, ofBits 0xCE000000#32, ofBits 0x00000000#32⟩
/-- src/globals.rs:105 `[1.0, 1.0 / 1024.0, 1.0 / (1024.0 * 1024.0), 1.0 / (1024.0 * 1024.0 * 1024.0)]` -/
def g_XMMulDec4 : V4 α := ⟨ofBits 0x3F800000#32, ofBits 0x3A800000#32, ofBits 0x35800000#32, ofBits 0x30800000#32⟩
/-- src/globals.rs:106 `[0xFF, 0xFF00, 0xFF0000, 0xFF000000]` -/
def g_XMMaskByte4 : V4 α := ⟨ofBits 0x000000FF#32, ofBits 0x0000FF00#32, ofBits 0x00FF0000#32, ofBits 0xFF000000#32⟩
/-- src/globals.rs:107 `[0x80, 0x8000, 0x800000, 0x00000000]` -/
def g_XMXorByte4 : V4 α := ⟨ofBits 0x00000080#32, ofBits 0x00008000#32, ofBits 0x00800000#32, ofBits 0x00000000#32⟩
/-- src/globals.rs:108 `[-128.0, -128.0 * 256.0, -128.0 * 65536.0, 0.0]` -/
def g_XMAddByte4 : V4 α := ⟨ofBits 0xC3000000#32, ofBits 0xC7000000#32, ofBits 0xCB000000#32, ofBits 0x00000000#32⟩
/-- src/globals.rs:109 `[32768.0 * 65536.0, 32768.0 * 65536.0, 32768.0 * 65536.0, 32768.0 * 65536.0]` -/
def g_XMFixUnsigned : V4 α := ⟨ofBits 0x4F000000#32, ofBits 0x4F000000#32, ofBits 0x4F000000#32, ofBits 0x4F000000#32⟩
/-- src/globals.rs:110 `[65536.0 * 32768.0 - 128.0, 65536.0 * 32768.0 - 128.0, 65536.0 * 32768.0 - 128.0, 65536.0 * 32768.0 - 128.0]` -/
def g_XMMaxInt : V4 α := ⟨ofBits 0x4EFFFFFF#32, ofBits 0x4EFFFFFF#32, ofBits 0x4EFFFFFF#32, ofBits 0x4EFFFFFF#32⟩
/-- src/globals.rs:111 `[65536.0 * 65536.0 - 256.0, 65536.0 * 65536.0 - 256.0, 65536.0 * 65536.0 - 256.0, 65536.0 * 65536.0 - 256.0]` -/
def g_XMMaxUInt : V4 α := ⟨ofBits 0x4F7FFFFF#32, ofBits 0x4F7FFFFF#32, ofBits 0x4F7FFFFF#32, ofBits 0x4F7FFFFF#32⟩
/-- src/globals.rs:112 `[32768.0 * 65536.0, 32768.0 * 65536.0, 32768.0 * 65536.0, 32768.0 * 65536.0]` -/
def g_XMUnsignedFix : V4 α := ⟨ofBits 0x4F000000#32, ofBits 0x4F000000#32, ofBits 0x4F000000#32, ofBits 0x4F000000#32⟩
/-- src/globals.rs:113 `[12.92, 12.92, 12.92, 1.0]` -/
def g_XMsrgbScale : V4 α := ⟨ofBits 0x414EB852#32, ofBits 0x414EB852#32, ofBits 0x414EB852#32, ofBits 0x3F800000#32⟩
/-- src/globals.rs:114 `[0.055, 0.055, 0.055, 0.0]` -/
def g_XMsrgbA : V4 α := ⟨ofBits 0x3D6147AE#32, ofBits 0x3D6147AE#32, ofBits 0x3D6147AE#32, ofBits 0x00000000#32⟩
/-- src/globals.rs:115 `[1.055, 1.055, 1.055, 1.0]` -/
def g_XMsrgbA1 : V4 α := ⟨ofBits 0x3F870A3D#32, ofBits 0x3F870A3D#32, ofBits 0x3F870A3D#32, ofBits 0x3F800000#32⟩
/-- src/globals.rs:116 `[127, 127, 127, 127]` -/
def g_XMExponentBias : V4 α := ⟨ofBits 0x0000007F#32, ofBits 0x0000007F#32, ofBits 0x0000007F#32, ofBits 0x0000007F#32⟩
/-- src/globals.rs:117 `[-126, -126, -126, -126]` -/
def g_XMSubnormalExponent : V4 α := ⟨ofBits 0xFFFFFF82#32, ofBits 0xFFFFFF82#32, ofBits 0xFFFFFF82#32, ofBits 0xFFFFFF82#32⟩
/-- src/globals.rs:118 `[23, 23, 23, 23]` -/
def g_XMNumTrailing : V4 α := ⟨ofBits 0x00000017#32, ofBits 0x00000017#32, ofBits 0x00000017#32, ofBits 0x00000017#32⟩
/-- src/globals.rs:119 `[0x00800000, 0x00800000, 0x00800000, 0x00800000]` -/
def g_XMMinNormal : V4 α := ⟨ofBits 0x00800000#32, ofBits 0x00800000#32, ofBits 0x00800000#32, ofBits 0x00800000#32⟩
/-- src/globals.rs:120 `[0xFF800000, 0xFF800000, 0xFF800000, 0xFF800000]` -/
def g_XMNegInfinity : V4 α := ⟨ofBits 0xFF800000#32, ofBits 0xFF800000#32, ofBits 0xFF800000#32, ofBits 0xFF800000#32⟩
/-- src/globals.rs:121 `[0xFFC00000, 0xFFC00000, 0xFFC00000, 0xFFC00000]` -/
def g_XMNegQNaN : V4 α := ⟨ofBits 0xFFC00000#32, ofBits 0xFFC00000#32, ofBits 0xFFC00000#32, ofBits 0xFFC00000#32⟩
/-- src/globals.rs:122 `[0x43000000, 0x43000000, 0x43000000, 0x43000000]` -/
def g_XMBin128 : V4 α := ⟨ofBits 0x43000000#32, ofBits 0x43000000#32, ofBits 0x43000000#32, ofBits 0x43000000#32⟩
/-- src/globals.rs:123 `[0xC3160000, 0xC3160000, 0xC3160000, 0xC3160000]` -/
def g_XMBinNeg150 : V4 α := ⟨ofBits 0xC3160000#32, ofBits 0xC3160000#32, ofBits 0xC3160000#32, ofBits 0xC3160000#32⟩
/-- src/globals.rs:124 `[253, 253, 253, 253]` -/
def g_XM253 : V4 α := ⟨ofBits 0x000000FD#32, ofBits 0x000000FD#32, ofBits 0x000000FD#32, ofBits 0x000000FD#32⟩
/-- src/globals.rs:125 `[-6.93147182e-1, -6.93147182e-1, -6.93147182e-1, -6.93147182e-1]` -/
def g_XMExpEst1 : V4 α := ⟨ofBits 0xBF317218#32, ofBits 0xBF317218#32, ofBits 0xBF317218#32, ofBits 0xBF317218#32⟩
/-- src/globals.rs:126 `[2.40226462e-1, 2.40226462e-1, 2.40226462e-1, 2.40226462e-1]` -/
def g_XMExpEst2 : V4 α := ⟨ofBits 0x3E75FDED#32, ofBits 0x3E75FDED#32, ofBits 0x3E75FDED#32, ofBits 0x3E75FDED#32⟩
/-- src/globals.rs:127 `[-5.55036440e-2, -5.55036440e-2, -5.55036440e-2, -5.55036440e-2]` -/
def g_XMExpEst3 : V4 α := ⟨ofBits 0xBD6357CA#32, ofBits 0xBD6357CA#32, ofBits 0xBD6357CA#32, ofBits 0xBD6357CA#32⟩
/-- src/globals.rs:128 `[9.61597636e-3, 9.61597636e-3, 9.61597636e-3, 9.61597636e-3]` -/
def g_XMExpEst4 : V4 α := ⟨ofBits 0x3C1D8C54#32, ofBits 0x3C1D8C54#32, ofBits 0x3C1D8C54#32, ofBits 0x3C1D8C54#32⟩
/-- src/globals.rs:129 `[-1.32823968e-3, -1.32823968e-3, -1.32823968e-3, -1.32823968e-3]` -/
def g_XMExpEst5 : V4 α := ⟨ofBits 0xBAAE1854#32, ofBits 0xBAAE1854#32, ofBits 0xBAAE1854#32, ofBits 0xBAAE1854#32⟩
/-- src/globals.rs:130 `[1.47491097e-4, 1.47491097e-4, 1.47491097e-4, 1.47491097e-4]` -/
def g_XMExpEst6 : V4 α := ⟨ofBits 0x391AA7D7#32, ofBits 0x391AA7D7#32, ofBits 0x391AA7D7#32, ofBits 0x391AA7D7#32⟩
/-- src/globals.rs:131 `[-1.08635004e-5, -1.08635004e-5, -1.08635004e-5, -1.08635004e-5]` -/
def g_XMExpEst7 : V4 α := ⟨ofBits 0xB7364261#32, ofBits 0xB7364261#32, ofBits 0xB7364261#32, ofBits 0xB7364261#32⟩
/-- src/globals.rs:132 `[1.442693, 1.442693, 1.442693, 1.442693]` -/
def g_XMLogEst0 : V4 α := ⟨ofBits 0x3FB8AA2A#32, ofBits 0x3FB8AA2A#32, ofBits 0x3FB8AA2A#32, ofBits 0x3FB8AA2A#32⟩
/-- src/globals.rs:133 `[-0.721242, -0.721242, -0.721242, -0.721242]` -/
def g_XMLogEst1 : V4 α := ⟨ofBits 0xBF38A351#32, ofBits 0xBF38A351#32, ofBits 0xBF38A351#32, ofBits 0xBF38A351#32⟩
/-- src/globals.rs:134 `[0.479384, 0.479384, 0.479384, 0.479384]` -/
def g_XMLogEst2 : V4 α := ⟨ofBits 0x3EF571D2#32, ofBits 0x3EF571D2#32, ofBits 0x3EF571D2#32, ofBits 0x3EF571D2#32⟩
/-- src/globals.rs:135 `[-0.350295, -0.350295, -0.350295, -0.350295]` -/
def g_XMLogEst3 : V4 α := ⟨ofBits 0xBEB359DE#32, ofBits 0xBEB359DE#32, ofBits 0xBEB359DE#32, ofBits 0xBEB359DE#32⟩
/-- src/globals.rs:136 `[0.248590, 0.248590, 0.248590, 0.248590]` -/
def g_XMLogEst4 : V4 α := ⟨ofBits 0x3E7E8E61#32, ofBits 0x3E7E8E61#32, ofBits 0x3E7E8E61#32, ofBits 0x3E7E8E61#32⟩
/-- src/globals.rs:137 `[-0.145700, -0.145700, -0.145700, -0.145700]` -/
def g_XMLogEst5 : V4 α := ⟨ofBits 0xBE153261#32, ofBits 0xBE153261#32, ofBits 0xBE153261#32, ofBits 0xBE153261#32⟩
/-- src/globals.rs:138 `[0.057148, 0.057148, 0.057148, 0.057148]` -/
def g_XMLogEst6 : V4 α := ⟨ofBits 0x3D6A1405#32, ofBits 0x3D6A1405#32, ofBits 0x3D6A1405#32, ofBits 0x3D6A1405#32⟩
/-- src/globals.rs:139 `[-0.010578, -0.010578, -0.010578, -0.010578]` -/
def g_XMLogEst7 : V4 α := ⟨ofBits 0xBC2D4F59#32, ofBits 0xBC2D4F59#32, ofBits 0xBC2D4F59#32, ofBits 0xBC2D4F59#32⟩
/-- src/globals.rs:140 `[1.442695, 1.442695, 1.442695, 1.442695]` -/
def g_XMLgE : V4 α := ⟨ofBits 0x3FB8AA3B#32, ofBits 0x3FB8AA3B#32, ofBits 0x3FB8AA3B#32, ofBits 0x3FB8AA3B#32⟩
/-- src/globals.rs:141 `[6.93147182e-1, 6.93147182e-1, 6.93147182e-1, 6.93147182e-1]` -/
def g_XMInvLgE : V4 α := ⟨ofBits 0x3F317218#32, ofBits 0x3F317218#32, ofBits 0x3F317218#32, ofBits 0x3F317218#32⟩
/-- src/globals.rs:142 `[255.0, 255.0, 255.0, 255.0]` -/
def g_UByteMax : V4 α := ⟨ofBits 0x437F0000#32, ofBits 0x437F0000#32, ofBits 0x437F0000#32, ofBits 0x437F0000#32⟩
/-- src/globals.rs:143 `[-127.0, -127.0, -127.0, -127.0]` -/
def g_ByteMin : V4 α := ⟨ofBits 0xC2FE0000#32, ofBits 0xC2FE0000#32, ofBits 0xC2FE0000#32, ofBits 0xC2FE0000#32⟩
/-- src/globals.rs:144 `[127.0, 127.0, 127.0, 127.0]` -/
def g_ByteMax : V4 α := ⟨ofBits 0x42FE0000#32, ofBits 0x42FE0000#32, ofBits 0x42FE0000#32, ofBits 0x42FE0000#32⟩
/-- src/globals.rs:145 `[-32767.0, -32767.0, -32767.0, -32767.0]` -/
def g_ShortMin : V4 α := ⟨ofBits 0xC6FFFE00#32, ofBits 0xC6FFFE00#32, ofBits 0xC6FFFE00#32, ofBits 0xC6FFFE00#32⟩
/-- src/globals.rs:146 `[32767.0, 32767.0, 32767.0, 32767.0]` -/
def g_ShortMax : V4 α := ⟨ofBits 0x46FFFE00#32, ofBits 0x46FFFE00#32, ofBits 0x46FFFE00#32, ofBits 0x46FFFE00#32⟩
/-- src/globals.rs:147 `[65535.0, 65535.0, 65535.0, 65535.0]` -/
def g_UShortMax : V4 α := ⟨ofBits 0x477FFF00#32, ofBits 0x477FFF00#32, ofBits 0x477FFF00#32, ofBits 0x477FFF00#32⟩

end DXM
