import Verif.Intrinsics
import Verif.Model.Globals
import Verif.Model.Vector1

/-
src/convert.rs 214-1729: loads and stores.

Memory is a map from word addresses to 32-bit words; a reference is the address of its first word.  All formats of the code
(`[u32; n]`, `XMFLOAT2/3/4`, `XMFLOAT3X3/4X3/3X4/4X4`, `repr(C)`, row after row, lib.rs:1683-2100) are consecutive words.
Alignment is not modelled: the aligned instructions are only used on `Align16` targets.
-/

namespace DXM
open Lane

/-- Memory: the 32-bit word at each word address. -/
abbrev Mem (α : Type) := Nat → α

variable {α : Type}

namespace Mem
/-- Write one word. -/
def set (m : Mem α) (p : Nat) (v : α) : Mem α := fun q => if q = p then v else m q
/-- `_mm_store_sd`: two words. -/
def store_sd (m : Mem α) (p : Nat) (v : V4 α) : Mem α := (m.set p v.x).set (p + 1) v.y
/-- `_mm_store_ss` -/
def store_ss (m : Mem α) (p : Nat) (v : V4 α) : Mem α := m.set p v.x
/-- `_mm_storeu_ps`, `_mm_store_ps`, `_mm_storeu_si128`: four words. -/
def storeu (m : Mem α) (p : Nat) (v : V4 α) : Mem α := (((m.set p v.x).set (p + 1) v.y).set (p + 2) v.z).set (p + 3) v.w
/-- `_mm_loadu_ps`, `_mm_load_ps`, `_mm_loadu_si128`: four words. -/
def loadu (m : Mem α) (p : Nat) : V4 α := ⟨m p, m (p + 1), m (p + 2), m (p + 3)⟩
variable [Lane α]
/-- `_mm_load_sd`: two words, the rest zero. -/
def load_sd (m : Mem α) (p : Nat) : V4 α := ⟨m p, m (p + 1), c0, c0⟩
/-- `_mm_load_ss`: one word, the rest zero. -/
def load_ss (m : Mem α) (p : Nat) : V4 α := ⟨m p, c0, c0, c0⟩
end Mem
open Mem

variable [Lane α]

/-- convert.rs:216-239 -/
def XMLoadInt2 (c : Cfg) (m : Mem α) (p : Nat) : V4 α :=
  if c.sse then load_sd m p else ⟨m p, m (p + 1), c0, c0⟩
/-- convert.rs:262-284 -/
def XMLoadFloat2 (c : Cfg) (m : Mem α) (p : Nat) : V4 α :=
  if c.sse then load_sd m p else ⟨m p, m (p + 1), c0, c0⟩
/-- convert.rs:295-327 -/
def XMLoadInt3 (c : Cfg) (m : Mem α) (p : Nat) : V4 α :=
  if c.sse then
    if c.sse4 then SSE.insert (load_sd m p) (load_ss m (p + 2)) 2
    else SSE.movelh (load_sd m p) (load_ss m (p + 2))
  else ⟨m p, m (p + 1), m (p + 2), c0⟩
/-- convert.rs:352-384 -/
def XMLoadFloat3 (c : Cfg) (m : Mem α) (p : Nat) : V4 α :=
  if c.sse then
    if c.sse4 then SSE.insert (load_sd m p) (load_ss m (p + 2)) 2
    else SSE.movelh (load_sd m p) (load_ss m (p + 2))
  else ⟨m p, m (p + 1), m (p + 2), c0⟩
/-- convert.rs:399-424; the SSE code reads the padding word of `Align16<XMFLOAT3>` and masks it off. -/
def XMLoadFloat3A (c : Cfg) (m : Mem α) (p : Nat) : V4 α :=
  if c.sse then SSE.and (loadu m p) g_XMMask3 else ⟨m p, m (p + 1), m (p + 2), c0⟩
/-- convert.rs:491-515 -/
def XMLoadInt4 (c : Cfg) (m : Mem α) (p : Nat) : V4 α :=
  if c.sse then loadu m p else ⟨m p, m (p + 1), m (p + 2), m (p + 3)⟩
/-- convert.rs:542-565 -/
def XMLoadFloat4 (c : Cfg) (m : Mem α) (p : Nat) : V4 α :=
  if c.sse then loadu m p else ⟨m p, m (p + 1), m (p + 2), m (p + 3)⟩
/-- convert.rs:580-603 -/
def XMLoadFloat4A (c : Cfg) (m : Mem α) (p : Nat) : V4 α :=
  if c.sse then loadu m p else ⟨m p, m (p + 1), m (p + 2), m (p + 3)⟩
/-- convert.rs:621-676; `m[i][j]` is the word at `p + 3*i + j`. -/
def XMLoadFloat3x3 (c : Cfg) (m : Mem α) (p : Nat) : M4 α :=
  if c.sse then
    let Z : V4 α := SSE.setzero
    let V1 := loadu m p
    let V2 := loadu m (p + 4)
    let V3 := load_ss m (p + 8)
    let T1 := SSE.unpackhi V1 Z
    let T2 := SSE.unpacklo V2 Z
    let T3 := SSE.shuffle V3 T2 0 1 0 0
    let T4 := SSE.movehl T2 T3
    let T5 := SSE.movehl Z T1
    ⟨SSE.movelh V1 T1, SSE.add T4 T5, SSE.shuffle V2 V3 1 0 3 2, g_XMIdentityR3⟩
  else
    ⟨⟨m p, m (p + 1), m (p + 2), c0⟩, ⟨m (p + 3), m (p + 4), m (p + 5), c0⟩, ⟨m (p + 6), m (p + 7), m (p + 8), c0⟩, ⟨c0, c0, c0, c1⟩⟩
/-- `_mm_srli_si128(v, 4)`: the lanes one place down, a zero word on top. -/
def srli4 (v : V4 α) : V4 α := ⟨v.y, v.z, v.w, ofBits 0#32⟩
/-- convert.rs:724-792; `m[i][j]` is the word at `p + 3*i + j`. -/
def XMLoadFloat4x3 (c : Cfg) (m : Mem α) (p : Nat) : M4 α :=
  if c.sse then
    let vTemp1 := loadu m p
    let vTemp2 := loadu m (p + 4)
    let vTemp4 := loadu m (p + 8)
    let vTemp3 := SSE.shuffle vTemp2 vTemp4 0 0 3 2
    let vTemp2 := SSE.shuffle vTemp2 vTemp1 3 3 1 0
    let vTemp2 := SSE.perm vTemp2 1 1 0 2
    let vTemp1 := SSE.and vTemp1 g_XMMask3
    let vTemp2 := SSE.and vTemp2 g_XMMask3
    let vTemp3 := SSE.and vTemp3 g_XMMask3
    let vTemp4i := SSE.or (srli4 vTemp4) g_XMIdentityR3
    ⟨vTemp1, vTemp2, vTemp3, vTemp4i⟩
  else
    ⟨⟨m p, m (p + 1), m (p + 2), c0⟩, ⟨m (p + 3), m (p + 4), m (p + 5), c0⟩, ⟨m (p + 6), m (p + 7), m (p + 8), c0⟩,
     ⟨m (p + 9), m (p + 10), m (p + 11), c1⟩⟩
/-- convert.rs:838-901; `m[i][j]` is the word at `p + 4*i + j`, the matrix is its transpose. -/
def XMLoadFloat3x4 (c : Cfg) (m : Mem α) (p : Nat) : M4 α :=
  if c.sse then
    let r0 := loadu m p
    let r1 := loadu m (p + 4)
    let r2 := loadu m (p + 8)
    let r3 : V4 α := g_XMIdentityR3
    let vTemp1 := SSE.shuffle r0 r1 1 0 1 0
    let vTemp3 := SSE.shuffle r0 r1 3 2 3 2
    let vTemp2 := SSE.shuffle r2 r3 1 0 1 0
    let vTemp4 := SSE.shuffle r2 r3 3 2 3 2
    ⟨SSE.shuffle vTemp1 vTemp2 2 0 2 0, SSE.shuffle vTemp1 vTemp2 3 1 3 1, SSE.shuffle vTemp3 vTemp4 2 0 2 0, SSE.shuffle vTemp3 vTemp4 3 1 3 1⟩
  else
    ⟨⟨m p, m (p + 4), m (p + 8), c0⟩, ⟨m (p + 1), m (p + 5), m (p + 9), c0⟩, ⟨m (p + 2), m (p + 6), m (p + 10), c0⟩,
     ⟨m (p + 3), m (p + 7), m (p + 11), c1⟩⟩
/-- convert.rs:909-952 -/
def XMLoadFloat4x4 (c : Cfg) (m : Mem α) (p : Nat) : M4 α :=
  if c.sse then ⟨loadu m p, loadu m (p + 4), loadu m (p + 8), loadu m (p + 12)⟩
  else
    ⟨⟨m p, m (p + 1), m (p + 2), m (p + 3)⟩, ⟨m (p + 4), m (p + 5), m (p + 6), m (p + 7)⟩,
     ⟨m (p + 8), m (p + 9), m (p + 10), m (p + 11)⟩, ⟨m (p + 12), m (p + 13), m (p + 14), m (p + 15)⟩⟩
/-- convert.rs:958-1001 -/
def XMLoadFloat4x4A (c : Cfg) (m : Mem α) (p : Nat) : M4 α :=
  if c.sse then ⟨loadu m p, loadu m (p + 4), loadu m (p + 8), loadu m (p + 12)⟩
  else
    ⟨⟨m p, m (p + 1), m (p + 2), m (p + 3)⟩, ⟨m (p + 4), m (p + 5), m (p + 6), m (p + 7)⟩,
     ⟨m (p + 8), m (p + 9), m (p + 10), m (p + 11)⟩, ⟨m (p + 12), m (p + 13), m (p + 14), m (p + 15)⟩⟩

omit [Lane α] in
/-- Consecutive single-word writes. -/
def Mem.sets (m : Mem α) : Nat → List α → Mem α
  | _, [] => m
  | p, v :: vs => Mem.sets (m.set p v) (p + 1) vs

/-- convert.rs:1010-1029 -/
def XMStoreFloat (c : Cfg) (m : Mem α) (p : Nat) (V : V4 α) : Mem α :=
  if c.sse then store_ss m p V else m.set p V.x
/-- convert.rs:1035-1055 -/
def XMStoreInt2 (c : Cfg) (m : Mem α) (p : Nat) (V : V4 α) : Mem α :=
  if c.sse then store_sd m p V else m.sets p [V.x, V.y]
/-- convert.rs:1076-1097 -/
def XMStoreFloat2 (c : Cfg) (m : Mem α) (p : Nat) (V : V4 α) : Mem α :=
  if c.sse then store_sd m p V else m.sets p [V.x, V.y]
/-- convert.rs:1115-1138 -/
def XMStoreInt3 (c : Cfg) (m : Mem α) (p : Nat) (V : V4 α) : Mem α :=
  if c.sse then (m.store_sd p V).store_ss (p + 2) (SSE.perm V 2 2 2 2) else m.sets p [V.x, V.y, V.z]
/-- convert.rs:1161-1192 -/
def XMStoreFloat3 (c : Cfg) (m : Mem α) (p : Nat) (V : V4 α) : Mem α :=
  if c.sse then
    if c.sse4 then ((m.set p (V.lane 0)).set (p + 1) (V.lane 1)).set (p + 2) (V.lane 2)
    else (m.store_sd p V).store_ss (p + 2) (SSE.perm V 2 2 2 2)
  else m.sets p [V.x, V.y, V.z]
/-- convert.rs:1207-1237 -/
def XMStoreFloat3A (c : Cfg) (m : Mem α) (p : Nat) (V : V4 α) : Mem α :=
  if c.sse then
    if c.sse4 then (m.store_sd p V).set (p + 2) (V.lane 2)
    else (m.store_sd p V).store_ss (p + 2) (SSE.movehl V V)
  else m.sets p [V.x, V.y, V.z]
/-- convert.rs:1255-1277 -/
def XMStoreInt4 (c : Cfg) (m : Mem α) (p : Nat) (V : V4 α) : Mem α :=
  if c.sse then m.storeu p V else m.sets p [V.x, V.y, V.z, V.w]
/-- convert.rs:1302-1324 -/
def XMStoreFloat4 (c : Cfg) (m : Mem α) (p : Nat) (V : V4 α) : Mem α :=
  if c.sse then m.storeu p V else m.sets p [V.x, V.y, V.z, V.w]
/-- convert.rs:1340-1362 -/
def XMStoreFloat4A (c : Cfg) (m : Mem α) (p : Nat) (V : V4 α) : Mem α :=
  if c.sse then m.storeu p V else m.sets p [V.x, V.y, V.z, V.w]
/-- convert.rs:1381-1419 -/
def XMStoreFloat3x3 (c : Cfg) (m : Mem α) (p : Nat) (M : M4 α) : Mem α :=
  if c.sse then
    let vTemp1 := M.r0
    let vTemp2 := M.r1
    let vTemp3 := M.r2
    let vWork := SSE.shuffle vTemp1 vTemp2 0 0 2 2
    let vTemp1 := SSE.shuffle vTemp1 vWork 2 0 1 0
    let m := m.storeu p vTemp1
    let vTemp2 := SSE.shuffle vTemp2 vTemp3 1 0 2 1
    let m := m.storeu (p + 4) vTemp2
    let vTemp3 := SSE.perm vTemp3 2 2 2 2
    m.store_ss (p + 8) vTemp3
  else m.sets p [M.r0.x, M.r0.y, M.r0.z, M.r1.x, M.r1.y, M.r1.z, M.r2.x, M.r2.y, M.r2.z]
/-- convert.rs:1493-1537 -/
def XMStoreFloat4x3 (c : Cfg) (m : Mem α) (p : Nat) (M : M4 α) : Mem α :=
  if c.sse then
    let vTemp1 := M.r0
    let vTemp2 := M.r1
    let vTemp3 := M.r2
    let vTemp4 := M.r3
    let vTemp2x := SSE.shuffle vTemp2 vTemp3 1 0 2 1
    let vTemp2 := SSE.shuffle vTemp2 vTemp1 2 2 0 0
    let vTemp1 := SSE.shuffle vTemp1 vTemp2 0 2 1 0
    let vTemp3 := SSE.shuffle vTemp3 vTemp4 0 0 2 2
    let vTemp3 := SSE.shuffle vTemp3 vTemp4 2 1 2 0
    ((m.storeu p vTemp1).storeu (p + 4) vTemp2x).storeu (p + 8) vTemp3
  else m.sets p [M.r0.x, M.r0.y, M.r0.z, M.r1.x, M.r1.y, M.r1.z, M.r2.x, M.r2.y, M.r2.z, M.r3.x, M.r3.y, M.r3.z]
/-- convert.rs:1586-1636 -/
def XMStoreFloat3x4 (c : Cfg) (m : Mem α) (p : Nat) (M : M4 α) : Mem α :=
  if c.sse then
    let vTemp1 := SSE.shuffle M.r0 M.r1 1 0 1 0
    let vTemp3 := SSE.shuffle M.r0 M.r1 3 2 3 2
    let vTemp2 := SSE.shuffle M.r2 M.r3 1 0 1 0
    let vTemp4 := SSE.shuffle M.r2 M.r3 3 2 3 2
    let r0 := SSE.shuffle vTemp1 vTemp2 2 0 2 0
    let r1 := SSE.shuffle vTemp1 vTemp2 3 1 3 1
    let r2 := SSE.shuffle vTemp3 vTemp4 2 0 2 0
    ((m.storeu p r0).storeu (p + 4) r1).storeu (p + 8) r2
  else m.sets p [M.r0.x, M.r1.x, M.r2.x, M.r3.x, M.r0.y, M.r1.y, M.r2.y, M.r3.y, M.r0.z, M.r1.z, M.r2.z, M.r3.z]
/-- convert.rs:1643-1683 -/
def XMStoreFloat4x4 (c : Cfg) (m : Mem α) (p : Nat) (M : M4 α) : Mem α :=
  if c.sse then (((m.storeu p M.r0).storeu (p + 4) M.r1).storeu (p + 8) M.r2).storeu (p + 12) M.r3
  else m.sets p [M.r0.x, M.r0.y, M.r0.z, M.r0.w, M.r1.x, M.r1.y, M.r1.z, M.r1.w, M.r2.x, M.r2.y, M.r2.z, M.r2.w, M.r3.x, M.r3.y, M.r3.z, M.r3.w]
/-- convert.rs:1689-1729 -/
def XMStoreFloat4x4A (c : Cfg) (m : Mem α) (p : Nat) (M : M4 α) : Mem α :=
  if c.sse then (((m.storeu p M.r0).storeu (p + 4) M.r1).storeu (p + 8) M.r2).storeu (p + 12) M.r3
  else m.sets p [M.r0.x, M.r0.y, M.r0.z, M.r0.w, M.r1.x, M.r1.y, M.r1.z, M.r1.w, M.r2.x, M.r2.y, M.r2.z, M.r2.w, M.r3.x, M.r3.y, M.r3.z, M.r3.w]

end DXM
