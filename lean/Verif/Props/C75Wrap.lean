import Verif.IoWrap
import Verif.Props.C75Mat
/-!
# C75: printing through the struct interface and the library

In a debug build, or with printing switched on, the struct interface shows the value; in a release build it leaves the stream as
it is.  The library always prints.
-/
open Cglm.Printf
namespace Cglm

/-- printing is compiled in exactly when the build is no release build or asks for it -/
theorem C75_switch (b : PrintFlags) (print : Text → Text) (s : Text) :
    ((b.ndebug = false ∨ b.definePrints = true ∨ b.libSrc = true ∨ b.noPrintsNoop = true) → b.run print s = print s) ∧
    (b.ndebug = true → b.definePrints = false → b.libSrc = false → b.noPrintsNoop = false → b.run print s = s) := by
  obtain ⟨n, d, l, o⟩ := b
  simp only [PrintFlags.run, PrintFlags.on]
  cases n <;> cases d <;> cases l <;> cases o <;> simp

/-- a release build leaves the stream unchanged -/
theorem C75_release (b : PrintFlags) (hb : b = ⟨true, false, false, false⟩) (cfg : PrintCfg) (s : Text) :
    (∀ v, glms_mat4_print b cfg v s = s) ∧
    (∀ v, glms_mat3_print b cfg v s = s) ∧
    (∀ v, glms_vec4_print b cfg v s = s) ∧
    (∀ v, glms_ivec4_print b cfg v s = s) ∧
    (∀ v, glms_vec3_print b cfg v s = s) ∧
    (∀ v, glms_ivec3_print b cfg v s = s) ∧
    (∀ v, glms_vec2_print b cfg v s = s) ∧
    (∀ v, glms_ivec2_print b cfg v s = s) ∧
    (∀ v, glms_versor_print b cfg v s = s) ∧
    (∀ v tag, glms_aabb_print b cfg v tag s = s) := by
  subst hb
  exact ⟨fun _ => rfl, fun _ => rfl, fun _ => rfl, fun _ => rfl, fun _ => rfl, fun _ => rfl, fun _ => rfl, fun _ => rfl, fun _ => rfl, fun _ _ => rfl⟩

/-! ### the struct interface, printing compiled in -/

theorem C75_glms_mat4 (b : PrintFlags) (hb : b.on = true) (cfg : PrintCfg) (hc : cfg.Ok) (v : M4 F32) :
    (lines (glms_mat4_print b cfg v [])).head? = some ("Matrix (float4x4): ".toList ++ cfg.color) ∧
    (lines (glms_mat4_print b cfg v [])).length = 7 ∧
    List.Forall₂ (fun i row => List.Forall₂ (ShowsMat cfg) row (shownRow (glms_mat4_print b cfg v []) i)) [0, 1, 2, 3] v.rows := by
  have e : glms_mat4_print b cfg v [] = glm_mat4_print cfg v [] := if_pos hb
  rw [e]
  exact C75_mat4 cfg hc v
theorem C75_glms_mat3 (b : PrintFlags) (hb : b.on = true) (cfg : PrintCfg) (hc : cfg.Ok) (v : M3 F32) :
    (lines (glms_mat3_print b cfg v [])).head? = some ("Matrix (float3x3): ".toList ++ cfg.color) ∧
    (lines (glms_mat3_print b cfg v [])).length = 6 ∧
    List.Forall₂ (fun i row => List.Forall₂ (ShowsMat cfg) row (shownRow (glms_mat3_print b cfg v []) i)) [0, 1, 2] v.rows := by
  have e : glms_mat3_print b cfg v [] = glm_mat3_print cfg v [] := if_pos hb
  rw [e]
  exact C75_mat3 cfg hc v
theorem C75_glms_vec4 (b : PrintFlags) (hb : b.on = true) (cfg : PrintCfg) (hc : cfg.Ok) (v : V4 F32) :
    (lines (glms_vec4_print b cfg v [])).head? = some ("Vector (float4): ".toList ++ cfg.color) ∧
    (lines (glms_vec4_print b cfg v [])).length = 4 ∧ List.Forall₂ (ShowsShort cfg) [v.x, v.y, v.z, v.w] (shownLine (glms_vec4_print b cfg v []) 1) := by
  have e : glms_vec4_print b cfg v [] = glm_vec4_print cfg v [] := if_pos hb
  rw [e]
  exact C75_vec4 cfg hc v
theorem C75_glms_ivec4 (b : PrintFlags) (hb : b.on = true) (cfg : PrintCfg) (hc : cfg.Ok) (v : V4 ℤ) :
    (lines (glms_ivec4_print b cfg v [])).head? = some ("Vector (int4): ".toList ++ cfg.color) ∧
    (lines (glms_ivec4_print b cfg v [])).length = 4 ∧ (shownLine (glms_ivec4_print b cfg v []) 1).map readInt = [v.x, v.y, v.z, v.w] := by
  have e : glms_ivec4_print b cfg v [] = glm_ivec4_print cfg v [] := if_pos hb
  rw [e]
  exact C75_ivec4 cfg hc v
theorem C75_glms_vec3 (b : PrintFlags) (hb : b.on = true) (cfg : PrintCfg) (hc : cfg.Ok) (v : V3 F32) :
    (lines (glms_vec3_print b cfg v [])).head? = some ("Vector (float3): ".toList ++ cfg.color) ∧
    (lines (glms_vec3_print b cfg v [])).length = 4 ∧ List.Forall₂ (ShowsShort cfg) [v.x, v.y, v.z] (shownLine (glms_vec3_print b cfg v []) 1) := by
  have e : glms_vec3_print b cfg v [] = glm_vec3_print cfg v [] := if_pos hb
  rw [e]
  exact C75_vec3 cfg hc v
theorem C75_glms_ivec3 (b : PrintFlags) (hb : b.on = true) (cfg : PrintCfg) (hc : cfg.Ok) (v : V3 ℤ) :
    (lines (glms_ivec3_print b cfg v [])).head? = some ("Vector (int3): ".toList ++ cfg.color) ∧
    (lines (glms_ivec3_print b cfg v [])).length = 4 ∧ (shownLine (glms_ivec3_print b cfg v []) 1).map readInt = [v.x, v.y, v.z] := by
  have e : glms_ivec3_print b cfg v [] = glm_ivec3_print cfg v [] := if_pos hb
  rw [e]
  exact C75_ivec3 cfg hc v
theorem C75_glms_vec2 (b : PrintFlags) (hb : b.on = true) (cfg : PrintCfg) (hc : cfg.Ok) (v : V2 F32) :
    (lines (glms_vec2_print b cfg v [])).head? = some ("Vector (float2): ".toList ++ cfg.color) ∧
    (lines (glms_vec2_print b cfg v [])).length = 4 ∧ List.Forall₂ (ShowsShort cfg) [v.x, v.y] (shownLine (glms_vec2_print b cfg v []) 1) := by
  have e : glms_vec2_print b cfg v [] = glm_vec2_print cfg v [] := if_pos hb
  rw [e]
  exact C75_vec2 cfg hc v
theorem C75_glms_ivec2 (b : PrintFlags) (hb : b.on = true) (cfg : PrintCfg) (hc : cfg.Ok) (v : V2 ℤ) :
    (lines (glms_ivec2_print b cfg v [])).head? = some ("Vector (int2): ".toList ++ cfg.color) ∧
    (lines (glms_ivec2_print b cfg v [])).length = 4 ∧ (shownLine (glms_ivec2_print b cfg v []) 1).map readInt = [v.x, v.y] := by
  have e : glms_ivec2_print b cfg v [] = glm_ivec2_print cfg v [] := if_pos hb
  rw [e]
  exact C75_ivec2 cfg hc v
theorem C75_glms_versor (b : PrintFlags) (hb : b.on = true) (cfg : PrintCfg) (hc : cfg.Ok) (v : V4 F32) :
    (lines (glms_versor_print b cfg v [])).head? = some ("Quaternion (float4): ".toList ++ cfg.color) ∧
    (lines (glms_versor_print b cfg v [])).length = 4 ∧ List.Forall₂ (ShowsShort cfg) [v.x, v.y, v.z, v.w] (shownLine (glms_versor_print b cfg v []) 1) := by
  have e : glms_versor_print b cfg v [] = glm_versor_print cfg v [] := if_pos hb
  rw [e]
  exact C75_versor cfg hc v
theorem C75_glms_aabb (b : PrintFlags) (hb : b.on = true) (cfg : PrintCfg) (hc : cfg.Ok) (v : M2x3 F32) (tag : Option Text)
    (ht : ∀ s, tag = some s → '\n' ∉ s) :
    (lines (glms_aabb_print b cfg v tag [])).head? = some ("AABB (".toList ++ tag.getD "float".toList ++ "): ".toList ++ cfg.color) ∧
    List.Forall₂ (ShowsShort cfg) [v.c0.x, v.c0.y, v.c0.z] (shownLine (glms_aabb_print b cfg v tag []) 1) ∧
    List.Forall₂ (ShowsShort cfg) [v.c1.x, v.c1.y, v.c1.z] (shownLine (glms_aabb_print b cfg v tag []) 2) := by
  have e : glms_aabb_print b cfg v tag [] = glm_aabb_print cfg v tag [] := if_pos hb
  rw [e]
  exact C75_aabb cfg hc v tag ht

example : (⟨true, true, false, false⟩ : PrintFlags).on = true := rfl

/-! ### the library prints in every build -/

theorem C75_glmc_mat4 (b : PrintFlags) (cfg : PrintCfg) (hc : cfg.Ok) (v : M4 F32) :
    (lines (glmc_mat4_print b cfg v [])).head? = some ("Matrix (float4x4): ".toList ++ cfg.color) ∧
    (lines (glmc_mat4_print b cfg v [])).length = 7 ∧
    List.Forall₂ (fun i row => List.Forall₂ (ShowsMat cfg) row (shownRow (glmc_mat4_print b cfg v []) i)) [0, 1, 2, 3] v.rows := by
  have e : glmc_mat4_print b cfg v [] = glm_mat4_print cfg v [] := if_pos (by simp [PrintFlags.on])
  rw [e]
  exact C75_mat4 cfg hc v
theorem C75_glmc_mat3 (b : PrintFlags) (cfg : PrintCfg) (hc : cfg.Ok) (v : M3 F32) :
    (lines (glmc_mat3_print b cfg v [])).head? = some ("Matrix (float3x3): ".toList ++ cfg.color) ∧
    (lines (glmc_mat3_print b cfg v [])).length = 6 ∧
    List.Forall₂ (fun i row => List.Forall₂ (ShowsMat cfg) row (shownRow (glmc_mat3_print b cfg v []) i)) [0, 1, 2] v.rows := by
  have e : glmc_mat3_print b cfg v [] = glm_mat3_print cfg v [] := if_pos (by simp [PrintFlags.on])
  rw [e]
  exact C75_mat3 cfg hc v
theorem C75_glmc_vec4 (b : PrintFlags) (cfg : PrintCfg) (hc : cfg.Ok) (v : V4 F32) :
    (lines (glmc_vec4_print b cfg v [])).head? = some ("Vector (float4): ".toList ++ cfg.color) ∧
    (lines (glmc_vec4_print b cfg v [])).length = 4 ∧ List.Forall₂ (ShowsShort cfg) [v.x, v.y, v.z, v.w] (shownLine (glmc_vec4_print b cfg v []) 1) := by
  have e : glmc_vec4_print b cfg v [] = glm_vec4_print cfg v [] := if_pos (by simp [PrintFlags.on])
  rw [e]
  exact C75_vec4 cfg hc v
theorem C75_glmc_vec3 (b : PrintFlags) (cfg : PrintCfg) (hc : cfg.Ok) (v : V3 F32) :
    (lines (glmc_vec3_print b cfg v [])).head? = some ("Vector (float3): ".toList ++ cfg.color) ∧
    (lines (glmc_vec3_print b cfg v [])).length = 4 ∧ List.Forall₂ (ShowsShort cfg) [v.x, v.y, v.z] (shownLine (glmc_vec3_print b cfg v []) 1) := by
  have e : glmc_vec3_print b cfg v [] = glm_vec3_print cfg v [] := if_pos (by simp [PrintFlags.on])
  rw [e]
  exact C75_vec3 cfg hc v
theorem C75_glmc_versor (b : PrintFlags) (cfg : PrintCfg) (hc : cfg.Ok) (v : V4 F32) :
    (lines (glmc_versor_print b cfg v [])).head? = some ("Quaternion (float4): ".toList ++ cfg.color) ∧
    (lines (glmc_versor_print b cfg v [])).length = 4 ∧ List.Forall₂ (ShowsShort cfg) [v.x, v.y, v.z, v.w] (shownLine (glmc_versor_print b cfg v []) 1) := by
  have e : glmc_versor_print b cfg v [] = glm_versor_print cfg v [] := if_pos (by simp [PrintFlags.on])
  rw [e]
  exact C75_versor cfg hc v

end Cglm
