/- Generated by tools/memgen.py; do not edit by hand. -/
import Verif.CMemSpec

/-!
# Arrays as lists of floats

`v.list` lists the elements of an array in memory order; a matrix is an array of columns.
-/

namespace Cglm

variable {α : Type}

def V2.list (v : V2 α) : List α := [v.x, v.y]
theorem V2.list_inj {v w : V2 α} (h : v.list = w.list) : v = w := by
  cases v; cases w; simpa [V2.list] using h
def V3.list (v : V3 α) : List α := [v.x, v.y, v.z]
theorem V3.list_inj {v w : V3 α} (h : v.list = w.list) : v = w := by
  cases v; cases w; simpa [V3.list] using h
def V4.list (v : V4 α) : List α := [v.x, v.y, v.z, v.w]
theorem V4.list_inj {v w : V4 α} (h : v.list = w.list) : v = w := by
  cases v; cases w; simpa [V4.list] using h
def V6.list (v : V6 α) : List α := [v.e0, v.e1, v.e2, v.e3, v.e4, v.e5]
theorem V6.list_inj {v w : V6 α} (h : v.list = w.list) : v = w := by
  cases v; cases w; simpa [V6.list] using h
def V8.list (v : V8 α) : List α := [v.e0, v.e1, v.e2, v.e3, v.e4, v.e5, v.e6, v.e7]
theorem V8.list_inj {v w : V8 α} (h : v.list = w.list) : v = w := by
  cases v; cases w; simpa [V8.list] using h
def V9.list (v : V9 α) : List α := [v.e0, v.e1, v.e2, v.e3, v.e4, v.e5, v.e6, v.e7, v.e8]
theorem V9.list_inj {v w : V9 α} (h : v.list = w.list) : v = w := by
  cases v; cases w; simpa [V9.list] using h
def V12.list (v : V12 α) : List α := [v.e0, v.e1, v.e2, v.e3, v.e4, v.e5, v.e6, v.e7, v.e8, v.e9, v.e10, v.e11]
theorem V12.list_inj {v w : V12 α} (h : v.list = w.list) : v = w := by
  cases v; cases w; simpa [V12.list] using h
def V16.list (v : V16 α) : List α := [v.e0, v.e1, v.e2, v.e3, v.e4, v.e5, v.e6, v.e7, v.e8, v.e9, v.e10, v.e11, v.e12, v.e13, v.e14, v.e15]
theorem V16.list_inj {v w : V16 α} (h : v.list = w.list) : v = w := by
  cases v; cases w; simpa [V16.list] using h
def M2.list (v : M2 α) : List α := v.c0.list ++ v.c1.list
theorem M2.list_inj {v w : M2 α} (h : v.list = w.list) : v = w := by
  rcases v with ⟨⟨v00, v01⟩, ⟨v10, v11⟩⟩
  rcases w with ⟨⟨w00, w01⟩, ⟨w10, w11⟩⟩
  simp only [M2.list, V2.list, List.cons_append, List.nil_append, List.cons.injEq, and_true] at h
  simp [h]
def M3.list (v : M3 α) : List α := v.c0.list ++ v.c1.list ++ v.c2.list
theorem M3.list_inj {v w : M3 α} (h : v.list = w.list) : v = w := by
  rcases v with ⟨⟨v00, v01, v02⟩, ⟨v10, v11, v12⟩, ⟨v20, v21, v22⟩⟩
  rcases w with ⟨⟨w00, w01, w02⟩, ⟨w10, w11, w12⟩, ⟨w20, w21, w22⟩⟩
  simp only [M3.list, V3.list, List.cons_append, List.nil_append, List.cons.injEq, and_true] at h
  simp [h]
def M4.list (v : M4 α) : List α := v.c0.list ++ v.c1.list ++ v.c2.list ++ v.c3.list
theorem M4.list_inj {v w : M4 α} (h : v.list = w.list) : v = w := by
  rcases v with ⟨⟨v00, v01, v02, v03⟩, ⟨v10, v11, v12, v13⟩, ⟨v20, v21, v22, v23⟩, ⟨v30, v31, v32, v33⟩⟩
  rcases w with ⟨⟨w00, w01, w02, w03⟩, ⟨w10, w11, w12, w13⟩, ⟨w20, w21, w22, w23⟩, ⟨w30, w31, w32, w33⟩⟩
  simp only [M4.list, V4.list, List.cons_append, List.nil_append, List.cons.injEq, and_true] at h
  simp [h]
def M2x3.list (v : M2x3 α) : List α := v.c0.list ++ v.c1.list
theorem M2x3.list_inj {v w : M2x3 α} (h : v.list = w.list) : v = w := by
  rcases v with ⟨⟨v00, v01, v02⟩, ⟨v10, v11, v12⟩⟩
  rcases w with ⟨⟨w00, w01, w02⟩, ⟨w10, w11, w12⟩⟩
  simp only [M2x3.list, V3.list, List.cons_append, List.nil_append, List.cons.injEq, and_true] at h
  simp [h]
def M2x4.list (v : M2x4 α) : List α := v.c0.list ++ v.c1.list
theorem M2x4.list_inj {v w : M2x4 α} (h : v.list = w.list) : v = w := by
  rcases v with ⟨⟨v00, v01, v02, v03⟩, ⟨v10, v11, v12, v13⟩⟩
  rcases w with ⟨⟨w00, w01, w02, w03⟩, ⟨w10, w11, w12, w13⟩⟩
  simp only [M2x4.list, V4.list, List.cons_append, List.nil_append, List.cons.injEq, and_true] at h
  simp [h]
def M3x2.list (v : M3x2 α) : List α := v.c0.list ++ v.c1.list ++ v.c2.list
theorem M3x2.list_inj {v w : M3x2 α} (h : v.list = w.list) : v = w := by
  rcases v with ⟨⟨v00, v01⟩, ⟨v10, v11⟩, ⟨v20, v21⟩⟩
  rcases w with ⟨⟨w00, w01⟩, ⟨w10, w11⟩, ⟨w20, w21⟩⟩
  simp only [M3x2.list, V2.list, List.cons_append, List.nil_append, List.cons.injEq, and_true] at h
  simp [h]
def M3x4.list (v : M3x4 α) : List α := v.c0.list ++ v.c1.list ++ v.c2.list
theorem M3x4.list_inj {v w : M3x4 α} (h : v.list = w.list) : v = w := by
  rcases v with ⟨⟨v00, v01, v02, v03⟩, ⟨v10, v11, v12, v13⟩, ⟨v20, v21, v22, v23⟩⟩
  rcases w with ⟨⟨w00, w01, w02, w03⟩, ⟨w10, w11, w12, w13⟩, ⟨w20, w21, w22, w23⟩⟩
  simp only [M3x4.list, V4.list, List.cons_append, List.nil_append, List.cons.injEq, and_true] at h
  simp [h]
def M4x2.list (v : M4x2 α) : List α := v.c0.list ++ v.c1.list ++ v.c2.list ++ v.c3.list
theorem M4x2.list_inj {v w : M4x2 α} (h : v.list = w.list) : v = w := by
  rcases v with ⟨⟨v00, v01⟩, ⟨v10, v11⟩, ⟨v20, v21⟩, ⟨v30, v31⟩⟩
  rcases w with ⟨⟨w00, w01⟩, ⟨w10, w11⟩, ⟨w20, w21⟩, ⟨w30, w31⟩⟩
  simp only [M4x2.list, V2.list, List.cons_append, List.nil_append, List.cons.injEq, and_true] at h
  simp [h]
def M4x3.list (v : M4x3 α) : List α := v.c0.list ++ v.c1.list ++ v.c2.list ++ v.c3.list
theorem M4x3.list_inj {v w : M4x3 α} (h : v.list = w.list) : v = w := by
  rcases v with ⟨⟨v00, v01, v02⟩, ⟨v10, v11, v12⟩, ⟨v20, v21, v22⟩, ⟨v30, v31, v32⟩⟩
  rcases w with ⟨⟨w00, w01, w02⟩, ⟨w10, w11, w12⟩, ⟨w20, w21, w22⟩, ⟨w30, w31, w32⟩⟩
  simp only [M4x3.list, V3.list, List.cons_append, List.nil_append, List.cons.injEq, and_true] at h
  simp [h]
def M6x4.list (v : M6x4 α) : List α := v.c0.list ++ v.c1.list ++ v.c2.list ++ v.c3.list ++ v.c4.list ++ v.c5.list
theorem M6x4.list_inj {v w : M6x4 α} (h : v.list = w.list) : v = w := by
  rcases v with ⟨⟨v00, v01, v02, v03⟩, ⟨v10, v11, v12, v13⟩, ⟨v20, v21, v22, v23⟩, ⟨v30, v31, v32, v33⟩, ⟨v40, v41, v42, v43⟩, ⟨v50, v51, v52, v53⟩⟩
  rcases w with ⟨⟨w00, w01, w02, w03⟩, ⟨w10, w11, w12, w13⟩, ⟨w20, w21, w22, w23⟩, ⟨w30, w31, w32, w33⟩, ⟨w40, w41, w42, w43⟩, ⟨w50, w51, w52, w53⟩⟩
  simp only [M6x4.list, V4.list, List.cons_append, List.nil_append, List.cons.injEq, and_true] at h
  simp [h]
def M8x4.list (v : M8x4 α) : List α := v.c0.list ++ v.c1.list ++ v.c2.list ++ v.c3.list ++ v.c4.list ++ v.c5.list ++ v.c6.list ++ v.c7.list
theorem M8x4.list_inj {v w : M8x4 α} (h : v.list = w.list) : v = w := by
  rcases v with ⟨⟨v00, v01, v02, v03⟩, ⟨v10, v11, v12, v13⟩, ⟨v20, v21, v22, v23⟩, ⟨v30, v31, v32, v33⟩, ⟨v40, v41, v42, v43⟩, ⟨v50, v51, v52, v53⟩, ⟨v60, v61, v62, v63⟩, ⟨v70, v71, v72, v73⟩⟩
  rcases w with ⟨⟨w00, w01, w02, w03⟩, ⟨w10, w11, w12, w13⟩, ⟨w20, w21, w22, w23⟩, ⟨w30, w31, w32, w33⟩, ⟨w40, w41, w42, w43⟩, ⟨w50, w51, w52, w53⟩, ⟨w60, w61, w62, w63⟩, ⟨w70, w71, w72, w73⟩⟩
  simp only [M8x4.list, V4.list, List.cons_append, List.nil_append, List.cons.injEq, and_true] at h
  simp [h]

end Cglm
