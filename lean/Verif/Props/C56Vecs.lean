/- Generated by tools/memgen.py, joined by tools/merge.py; do not edit by hand. -/
import Verif.Mem.VecsRun
import Verif.Props.C55Vecs

section C56Util

/-!
# C56: memory safety and framing (include/cglm/util.h)

Called with initialised inputs and a writable destination that does not overlap them, the function is defined,
returns the value-level result and changes no memory but its destination.
-/

set_option linter.unusedVariables false
set_option linter.unusedSectionVars false

namespace Cglm
open CMem

variable {α : Type} [Add α] [Sub α] [Mul α] [Div α] [Neg α] [CFloat α]

theorem C56_signf (mem : Mem α) (val : α) :
    C.glm_signf.run mem [.f val] =
      some (some (.f (Cglm.glm_signf val)), mem) := by
  exact transferL (R.nil _) (.f .nil) (glm_signf_run _) (DT.val_done _) rfl rfl

theorem C56_rad (mem : Mem α) (deg : α) :
    C.glm_rad.run mem [.f deg] =
      some (some (.f (Cglm.glm_rad deg)), mem) := by
  exact transferL (R.nil _) (.f .nil) (glm_rad_run _) (DT.val_done _) rfl rfl

theorem C56_deg (mem : Mem α) (rad : α) :
    C.glm_deg.run mem [.f rad] =
      some (some (.f (Cglm.glm_deg rad)), mem) := by
  exact transferL (R.nil _) (.f .nil) (glm_deg_run _) (DT.val_done _) rfl rfl

theorem C56_make_rad {mem : Mem α} {degP : Ptr} {deg : α} (h_deg : Holds mem degP [deg]) (r_deg : Room mem degP 1) :
    C.glm_make_rad.run mem [degP.val] =
      some (none, writes mem [(degP, [(Cglm.glm_make_rad deg)].map .f)]) := by
  exact transferL ((R.nil _).addW h_deg.has r_deg .nil) (.p rfl .nil) (glm_make_rad_run _) (DT.val_done _) rfl rfl
example (deg : α) : let mem : Mem α := [⟨true, [deg].map .f⟩]
    Holds mem (0, 0) [deg] ∧ Room mem (0, 0) 1 :=
  ⟨.block rfl, .block rfl rfl⟩

theorem C56_make_deg {mem : Mem α} {radP : Ptr} {rad : α} (h_rad : Holds mem radP [rad]) (r_rad : Room mem radP 1) :
    C.glm_make_deg.run mem [radP.val] =
      some (none, writes mem [(radP, [(Cglm.glm_make_deg rad)].map .f)]) := by
  exact transferL ((R.nil _).addW h_rad.has r_rad .nil) (.p rfl .nil) (glm_make_deg_run _) (DT.val_done _) rfl rfl
example (rad : α) : let mem : Mem α := [⟨true, [rad].map .f⟩]
    Holds mem (0, 0) [rad] ∧ Room mem (0, 0) 1 :=
  ⟨.block rfl, .block rfl rfl⟩

theorem C56_pow2 (mem : Mem α) (x : α) :
    C.glm_pow2.run mem [.f x] =
      some (some (.f (Cglm.glm_pow2 x)), mem) := by
  exact transferL (R.nil _) (.f .nil) (glm_pow2_run _) (DT.val_done _) rfl rfl

theorem C56_min (mem : Mem α) (a : α) (b : α) :
    C.glm_min.run mem [.f a, .f b] =
      some (some (.f (Cglm.glm_min a b)), mem) := by
  exact transferL (R.nil _) (.f (.f .nil)) (glm_min_run _ _) (DT.val_map_eq (glm_min_dt_val _ _) rfl) rfl rfl

theorem C56_max (mem : Mem α) (a : α) (b : α) :
    C.glm_max.run mem [.f a, .f b] =
      some (some (.f (Cglm.glm_max a b)), mem) := by
  exact transferL (R.nil _) (.f (.f .nil)) (glm_max_run _ _) (DT.val_map_eq (glm_max_dt_val _ _) rfl) rfl rfl

theorem C56_imin (mem : Mem α) (a : Int) (b : Int) :
    C.glm_imin.run mem [.i a, .i b] =
      some (some (.i (Cglm.glm_imin a b)), mem) := by
  exact transferL (R.nil _) (.i (.i .nil)) (glm_imin_run _ _) (DT.val_map_eq (glm_imin_dt_val _ _) rfl) rfl rfl

theorem C56_imax (mem : Mem α) (a : Int) (b : Int) :
    C.glm_imax.run mem [.i a, .i b] =
      some (some (.i (Cglm.glm_imax a b)), mem) := by
  exact transferL (R.nil _) (.i (.i .nil)) (glm_imax_run _ _) (DT.val_map_eq (glm_imax_dt_val _ _) rfl) rfl rfl

theorem C56_clamp (mem : Mem α) (val : α) (minVal : α) (maxVal : α) :
    C.glm_clamp.run mem [.f val, .f minVal, .f maxVal] =
      some (some (.f (Cglm.glm_clamp val minVal maxVal)), mem) := by
  exact transferL (R.nil _) (.f (.f (.f .nil))) (glm_clamp_run _ _ _) (DT.val_done _) rfl rfl

theorem C56_clamp_zo (mem : Mem α) (val : α) :
    C.glm_clamp_zo.run mem [.f val] =
      some (some (.f (Cglm.glm_clamp_zo val)), mem) := by
  exact transferL (R.nil _) (.f .nil) (glm_clamp_zo_run _) (DT.val_done _) rfl rfl

theorem C56_lerp (mem : Mem α) (frm : α) («to» : α) (t : α) :
    C.glm_lerp.run mem [.f frm, .f «to», .f t] =
      some (some (.f (Cglm.glm_lerp frm «to» t)), mem) := by
  exact transferL (R.nil _) (.f (.f (.f .nil))) (glm_lerp_run _ _ _) (DT.val_done _) rfl rfl

theorem C56_lerpc (mem : Mem α) (frm : α) («to» : α) (t : α) :
    C.glm_lerpc.run mem [.f frm, .f «to», .f t] =
      some (some (.f (Cglm.glm_lerpc frm «to» t)), mem) := by
  exact transferL (R.nil _) (.f (.f (.f .nil))) (glm_lerpc_run _ _ _) (DT.val_done _) rfl rfl

theorem C56_step (mem : Mem α) (edge : α) (x : α) :
    C.glm_step.run mem [.f edge, .f x] =
      some (some (.f (Cglm.glm_step edge x)), mem) := by
  exact transferL (R.nil _) (.f (.f .nil)) (glm_step_run _ _) (DT.val_done _) rfl rfl

theorem C56_smooth (mem : Mem α) (t : α) :
    C.glm_smooth.run mem [.f t] =
      some (some (.f (Cglm.glm_smooth t)), mem) := by
  exact transferL (R.nil _) (.f .nil) (glm_smooth_run _) (DT.val_done _) rfl rfl

theorem C56_smoothstep (mem : Mem α) (edge0 : α) (edge1 : α) (x : α) :
    C.glm_smoothstep.run mem [.f edge0, .f edge1, .f x] =
      some (some (.f (Cglm.glm_smoothstep edge0 edge1 x)), mem) := by
  exact transferL (R.nil _) (.f (.f (.f .nil))) (glm_smoothstep_run _ _ _) (DT.val_done _) rfl rfl

theorem C56_smoothinterp (mem : Mem α) (frm : α) («to» : α) (t : α) :
    C.glm_smoothinterp.run mem [.f frm, .f «to», .f t] =
      some (some (.f (Cglm.glm_smoothinterp frm «to» t)), mem) := by
  exact transferL (R.nil _) (.f (.f (.f .nil))) (glm_smoothinterp_run _ _ _) (DT.val_done _) rfl rfl

theorem C56_smoothinterpc (mem : Mem α) (frm : α) («to» : α) (t : α) :
    C.glm_smoothinterpc.run mem [.f frm, .f «to», .f t] =
      some (some (.f (Cglm.glm_smoothinterpc frm «to» t)), mem) := by
  exact transferL (R.nil _) (.f (.f (.f .nil))) (glm_smoothinterpc_run _ _ _) (DT.val_done _) rfl rfl

theorem C56_eq (mem : Mem α) (a : α) (b : α) :
    C.glm_eq.run mem [.f a, .f b] =
      some (some (.b (Cglm.glm_eq a b)), mem) := by
  exact transferL (R.nil _) (.f (.f .nil)) (glm_eq_run _ _) (DT.val_done _) rfl rfl

theorem C56_percent (mem : Mem α) (frm : α) («to» : α) (current : α) :
    C.glm_percent.run mem [.f frm, .f «to», .f current] =
      some (some (.f (Cglm.glm_percent frm «to» current)), mem) := by
  exact transferL (R.nil _) (.f (.f (.f .nil))) (glm_percent_run _ _ _) (DT.val_map_eq (glm_percent_dt_val _ _ _) rfl) rfl rfl

theorem C56_percentc (mem : Mem α) (frm : α) («to» : α) (current : α) :
    C.glm_percentc.run mem [.f frm, .f «to», .f current] =
      some (some (.f (Cglm.glm_percentc frm «to» current)), mem) := by
  exact transferL (R.nil _) (.f (.f (.f .nil))) (glm_percentc_run _ _ _) (DT.val_done _) rfl rfl

theorem C56_swapf {mem : Mem α} {aP bP : Ptr} {a : α} {b : α} (h_a : Holds mem aP [a]) (r_a : Room mem aP 1) (h_b : Holds mem bP [b]) (r_b : Room mem bP 1) (s_a_b : Apart aP 1 bP 1) :
    C.glm_swapf.run mem [aP.val, bP.val] =
      some (none, writes mem [(aP, [(Cglm.glm_swapf a b).1].map .f), (bP, [(Cglm.glm_swapf a b).2].map .f)]) := by
  exact transferL (((R.nil _).addW h_b.has r_b .nil).addW h_a.has r_a (.cons s_a_b .nil)) (.p rfl (.p rfl .nil)) (glm_swapf_run _ _) (DT.val_done _) rfl rfl
example (a : α) (b : α) : let mem : Mem α := [⟨true, [a].map .f⟩, ⟨true, [b].map .f⟩]
    Holds mem (0, 0) [a] ∧ Room mem (0, 0) 1 ∧ Holds mem (1, 0) [b] ∧ Room mem (1, 0) 1 ∧ Apart (0, 0) 1 (1, 0) 1 :=
  ⟨.block rfl, .block rfl rfl, .block rfl, .block rfl rfl, Or.inl (by decide)⟩

end Cglm

end C56Util

section C56Vec2

/-!
# C56: memory safety and framing (include/cglm/vec2.h)

Called with initialised inputs and a writable destination that does not overlap them, the function is defined,
returns the value-level result and changes no memory but its destination.
-/

set_option linter.unusedVariables false
set_option linter.unusedSectionVars false

namespace Cglm
open CMem

variable {α : Type} [Add α] [Sub α] [Mul α] [Div α] [Neg α] [CFloat α]

theorem C56_vec2 {mem : Mem α} {vP destP : Ptr} {v : V2 α} (h_v : Holds mem vP v.list) (r_dest : Room mem destP 2) (s_v_dest : Apart vP 2 destP 2) :
    C.glm_vec2.run mem [vP.val, destP.val] =
      some (none, writes mem [(destP, (Cglm.glm_vec2 v).list.map .f)]) :=
  C55_vec2 h_v r_dest (Or.inr s_v_dest)
example (v : V2 α) : let mem : Mem α := [⟨false, v.list.map .f⟩, ⟨true, List.replicate 2 .undef⟩]
    Holds mem (0, 0) v.list ∧ Room mem (1, 0) 2 ∧ Apart (0, 0) 2 (1, 0) 2 :=
  ⟨.block rfl, .block rfl rfl, Or.inl (by decide)⟩

theorem C56_vec2_copy {mem : Mem α} {aP destP : Ptr} {a : V2 α} (h_a : Holds mem aP a.list) (r_dest : Room mem destP 2) (s_a_dest : Apart aP 2 destP 2) :
    C.glm_vec2_copy.run mem [aP.val, destP.val] =
      some (none, writes mem [(destP, (Cglm.glm_vec2_copy a).list.map .f)]) :=
  C55_vec2_copy h_a r_dest (Or.inr s_a_dest)
example (a : V2 α) : let mem : Mem α := [⟨false, a.list.map .f⟩, ⟨true, List.replicate 2 .undef⟩]
    Holds mem (0, 0) a.list ∧ Room mem (1, 0) 2 ∧ Apart (0, 0) 2 (1, 0) 2 :=
  ⟨.block rfl, .block rfl rfl, Or.inl (by decide)⟩

theorem C56_vec2_zero {mem : Mem α} {vP : Ptr} (r_v : Room mem vP 2) :
    C.glm_vec2_zero.run mem [vP.val] =
      some (none, writes mem [(vP, (Cglm.glm_vec2_zero).list.map .f)]) := by
  exact transferL ((R.nil _).addW r_v.has r_v .nil) (.p rfl .nil) (glm_vec2_zero_run) (DT.val_done _) rfl rfl
example : let mem : Mem α := [⟨true, List.replicate 2 .undef⟩]
    Room mem (0, 0) 2 :=
  .block rfl rfl

theorem C56_vec2_one {mem : Mem α} {vP : Ptr} (r_v : Room mem vP 2) :
    C.glm_vec2_one.run mem [vP.val] =
      some (none, writes mem [(vP, (Cglm.glm_vec2_one).list.map .f)]) := by
  exact transferL ((R.nil _).addW r_v.has r_v .nil) (.p rfl .nil) (glm_vec2_one_run) (DT.val_done _) rfl rfl
example : let mem : Mem α := [⟨true, List.replicate 2 .undef⟩]
    Room mem (0, 0) 2 :=
  .block rfl rfl

theorem C56_vec2_dot {mem : Mem α} {aP bP : Ptr} {a : V2 α} {b : V2 α} (h_a : Holds mem aP a.list) (h_b : Holds mem bP b.list) :
    C.glm_vec2_dot.run mem [aP.val, bP.val] =
      some (some (.f (Cglm.glm_vec2_dot a b)), mem) := by
  exact transferL (((R.nil _).addR h_b.has .nil).addR h_a.has (.skip .nil)) (.p rfl (.p rfl .nil)) (glm_vec2_dot_run _ _) (DT.val_done _) rfl rfl
example (a : V2 α) (b : V2 α) : let mem : Mem α := [⟨false, a.list.map .f⟩, ⟨false, b.list.map .f⟩]
    Holds mem (0, 0) a.list ∧ Holds mem (1, 0) b.list :=
  ⟨.block rfl, .block rfl⟩

theorem C56_vec2_cross {mem : Mem α} {aP bP : Ptr} {a : V2 α} {b : V2 α} (h_a : Holds mem aP a.list) (h_b : Holds mem bP b.list) :
    C.glm_vec2_cross.run mem [aP.val, bP.val] =
      some (some (.f (Cglm.glm_vec2_cross a b)), mem) := by
  exact transferL (((R.nil _).addR h_b.has .nil).addR h_a.has (.skip .nil)) (.p rfl (.p rfl .nil)) (glm_vec2_cross_run _ _) (DT.val_done _) rfl rfl
example (a : V2 α) (b : V2 α) : let mem : Mem α := [⟨false, a.list.map .f⟩, ⟨false, b.list.map .f⟩]
    Holds mem (0, 0) a.list ∧ Holds mem (1, 0) b.list :=
  ⟨.block rfl, .block rfl⟩

theorem C56_vec2_norm2 {mem : Mem α} {vP : Ptr} {v : V2 α} (h_v : Holds mem vP v.list) :
    C.glm_vec2_norm2.run mem [vP.val] =
      some (some (.f (Cglm.glm_vec2_norm2 v)), mem) := by
  exact transferL ((R.nil _).addR h_v.has .nil) (.p rfl .nil) (glm_vec2_norm2_run _) (DT.val_done _) rfl rfl
example (v : V2 α) : let mem : Mem α := [⟨false, v.list.map .f⟩]
    Holds mem (0, 0) v.list :=
  .block rfl

theorem C56_vec2_norm {mem : Mem α} {vecP : Ptr} {vec : V2 α} (h_vec : Holds mem vecP vec.list) :
    C.glm_vec2_norm.run mem [vecP.val] =
      some (some (.f (Cglm.glm_vec2_norm vec)), mem) := by
  exact transferL ((R.nil _).addR h_vec.has .nil) (.p rfl .nil) (glm_vec2_norm_run _) (DT.val_done _) rfl rfl
example (vec : V2 α) : let mem : Mem α := [⟨false, vec.list.map .f⟩]
    Holds mem (0, 0) vec.list :=
  .block rfl

theorem C56_vec2_add {mem : Mem α} {aP bP destP : Ptr} {a : V2 α} {b : V2 α} (h_a : Holds mem aP a.list) (h_b : Holds mem bP b.list) (r_dest : Room mem destP 2) (s_a_dest : Apart aP 2 destP 2) (s_b_dest : Apart bP 2 destP 2) :
    C.glm_vec2_add.run mem [aP.val, bP.val, destP.val] =
      some (none, writes mem [(destP, (Cglm.glm_vec2_add a b).list.map .f)]) :=
  C55_vec2_add h_a h_b r_dest (Or.inr s_a_dest) (Or.inr s_b_dest)
example (a : V2 α) (b : V2 α) : let mem : Mem α := [⟨false, a.list.map .f⟩, ⟨false, b.list.map .f⟩, ⟨true, List.replicate 2 .undef⟩]
    Holds mem (0, 0) a.list ∧ Holds mem (1, 0) b.list ∧ Room mem (2, 0) 2 ∧ Apart (0, 0) 2 (2, 0) 2 ∧ Apart (1, 0) 2 (2, 0) 2 :=
  ⟨.block rfl, .block rfl, .block rfl rfl, Or.inl (by decide), Or.inl (by decide)⟩

theorem C56_vec2_adds {mem : Mem α} {vP destP : Ptr} {v : V2 α} (s : α) (h_v : Holds mem vP v.list) (r_dest : Room mem destP 2) (s_v_dest : Apart vP 2 destP 2) :
    C.glm_vec2_adds.run mem [vP.val, .f s, destP.val] =
      some (none, writes mem [(destP, (Cglm.glm_vec2_adds v s).list.map .f)]) :=
  C55_vec2_adds s h_v r_dest (Or.inr s_v_dest)
example (v : V2 α) : let mem : Mem α := [⟨false, v.list.map .f⟩, ⟨true, List.replicate 2 .undef⟩]
    Holds mem (0, 0) v.list ∧ Room mem (1, 0) 2 ∧ Apart (0, 0) 2 (1, 0) 2 :=
  ⟨.block rfl, .block rfl rfl, Or.inl (by decide)⟩

theorem C56_vec2_sub {mem : Mem α} {aP bP destP : Ptr} {a : V2 α} {b : V2 α} (h_a : Holds mem aP a.list) (h_b : Holds mem bP b.list) (r_dest : Room mem destP 2) (s_a_dest : Apart aP 2 destP 2) (s_b_dest : Apart bP 2 destP 2) :
    C.glm_vec2_sub.run mem [aP.val, bP.val, destP.val] =
      some (none, writes mem [(destP, (Cglm.glm_vec2_sub a b).list.map .f)]) :=
  C55_vec2_sub h_a h_b r_dest (Or.inr s_a_dest) (Or.inr s_b_dest)
example (a : V2 α) (b : V2 α) : let mem : Mem α := [⟨false, a.list.map .f⟩, ⟨false, b.list.map .f⟩, ⟨true, List.replicate 2 .undef⟩]
    Holds mem (0, 0) a.list ∧ Holds mem (1, 0) b.list ∧ Room mem (2, 0) 2 ∧ Apart (0, 0) 2 (2, 0) 2 ∧ Apart (1, 0) 2 (2, 0) 2 :=
  ⟨.block rfl, .block rfl, .block rfl rfl, Or.inl (by decide), Or.inl (by decide)⟩

theorem C56_vec2_subs {mem : Mem α} {vP destP : Ptr} {v : V2 α} (s : α) (h_v : Holds mem vP v.list) (r_dest : Room mem destP 2) (s_v_dest : Apart vP 2 destP 2) :
    C.glm_vec2_subs.run mem [vP.val, .f s, destP.val] =
      some (none, writes mem [(destP, (Cglm.glm_vec2_subs v s).list.map .f)]) :=
  C55_vec2_subs s h_v r_dest (Or.inr s_v_dest)
example (v : V2 α) : let mem : Mem α := [⟨false, v.list.map .f⟩, ⟨true, List.replicate 2 .undef⟩]
    Holds mem (0, 0) v.list ∧ Room mem (1, 0) 2 ∧ Apart (0, 0) 2 (1, 0) 2 :=
  ⟨.block rfl, .block rfl rfl, Or.inl (by decide)⟩

theorem C56_vec2_mul {mem : Mem α} {aP bP destP : Ptr} {a : V2 α} {b : V2 α} (h_a : Holds mem aP a.list) (h_b : Holds mem bP b.list) (r_dest : Room mem destP 2) (s_a_dest : Apart aP 2 destP 2) (s_b_dest : Apart bP 2 destP 2) :
    C.glm_vec2_mul.run mem [aP.val, bP.val, destP.val] =
      some (none, writes mem [(destP, (Cglm.glm_vec2_mul a b).list.map .f)]) :=
  C55_vec2_mul h_a h_b r_dest (Or.inr s_a_dest) (Or.inr s_b_dest)
example (a : V2 α) (b : V2 α) : let mem : Mem α := [⟨false, a.list.map .f⟩, ⟨false, b.list.map .f⟩, ⟨true, List.replicate 2 .undef⟩]
    Holds mem (0, 0) a.list ∧ Holds mem (1, 0) b.list ∧ Room mem (2, 0) 2 ∧ Apart (0, 0) 2 (2, 0) 2 ∧ Apart (1, 0) 2 (2, 0) 2 :=
  ⟨.block rfl, .block rfl, .block rfl rfl, Or.inl (by decide), Or.inl (by decide)⟩

theorem C56_vec2_scale {mem : Mem α} {vP destP : Ptr} {v : V2 α} (s : α) (h_v : Holds mem vP v.list) (r_dest : Room mem destP 2) (s_v_dest : Apart vP 2 destP 2) :
    C.glm_vec2_scale.run mem [vP.val, .f s, destP.val] =
      some (none, writes mem [(destP, (Cglm.glm_vec2_scale v s).list.map .f)]) :=
  C55_vec2_scale s h_v r_dest (Or.inr s_v_dest)
example (v : V2 α) : let mem : Mem α := [⟨false, v.list.map .f⟩, ⟨true, List.replicate 2 .undef⟩]
    Holds mem (0, 0) v.list ∧ Room mem (1, 0) 2 ∧ Apart (0, 0) 2 (1, 0) 2 :=
  ⟨.block rfl, .block rfl rfl, Or.inl (by decide)⟩

theorem C56_vec2_scale_as {mem : Mem α} {vP destP : Ptr} {v : V2 α} (s : α) (h_v : Holds mem vP v.list) (r_dest : Room mem destP 2) (s_v_dest : Apart vP 2 destP 2) :
    C.glm_vec2_scale_as.run mem [vP.val, .f s, destP.val] =
      some (none, writes mem [(destP, (Cglm.glm_vec2_scale_as v s).list.map .f)]) :=
  C55_vec2_scale_as s h_v r_dest (Or.inr s_v_dest)
example (v : V2 α) : let mem : Mem α := [⟨false, v.list.map .f⟩, ⟨true, List.replicate 2 .undef⟩]
    Holds mem (0, 0) v.list ∧ Room mem (1, 0) 2 ∧ Apart (0, 0) 2 (1, 0) 2 :=
  ⟨.block rfl, .block rfl rfl, Or.inl (by decide)⟩

theorem C56_vec2_div {mem : Mem α} {aP bP destP : Ptr} {a : V2 α} {b : V2 α} (h_a : Holds mem aP a.list) (h_b : Holds mem bP b.list) (r_dest : Room mem destP 2) (s_a_dest : Apart aP 2 destP 2) (s_b_dest : Apart bP 2 destP 2) :
    C.glm_vec2_div.run mem [aP.val, bP.val, destP.val] =
      some (none, writes mem [(destP, (Cglm.glm_vec2_div a b).list.map .f)]) :=
  C55_vec2_div h_a h_b r_dest (Or.inr s_a_dest) (Or.inr s_b_dest)
example (a : V2 α) (b : V2 α) : let mem : Mem α := [⟨false, a.list.map .f⟩, ⟨false, b.list.map .f⟩, ⟨true, List.replicate 2 .undef⟩]
    Holds mem (0, 0) a.list ∧ Holds mem (1, 0) b.list ∧ Room mem (2, 0) 2 ∧ Apart (0, 0) 2 (2, 0) 2 ∧ Apart (1, 0) 2 (2, 0) 2 :=
  ⟨.block rfl, .block rfl, .block rfl rfl, Or.inl (by decide), Or.inl (by decide)⟩

theorem C56_vec2_divs {mem : Mem α} {vP destP : Ptr} {v : V2 α} (s : α) (h_v : Holds mem vP v.list) (r_dest : Room mem destP 2) (s_v_dest : Apart vP 2 destP 2) :
    C.glm_vec2_divs.run mem [vP.val, .f s, destP.val] =
      some (none, writes mem [(destP, (Cglm.glm_vec2_divs v s).list.map .f)]) :=
  C55_vec2_divs s h_v r_dest (Or.inr s_v_dest)
example (v : V2 α) : let mem : Mem α := [⟨false, v.list.map .f⟩, ⟨true, List.replicate 2 .undef⟩]
    Holds mem (0, 0) v.list ∧ Room mem (1, 0) 2 ∧ Apart (0, 0) 2 (1, 0) 2 :=
  ⟨.block rfl, .block rfl rfl, Or.inl (by decide)⟩

theorem C56_vec2_addadd {mem : Mem α} {aP bP destP : Ptr} {a : V2 α} {b : V2 α} {dest : V2 α} (h_a : Holds mem aP a.list) (h_b : Holds mem bP b.list) (h_dest : Holds mem destP dest.list) (r_dest : Room mem destP 2) (s_a_dest : Apart aP 2 destP 2) (s_b_dest : Apart bP 2 destP 2) :
    C.glm_vec2_addadd.run mem [aP.val, bP.val, destP.val] =
      some (none, writes mem [(destP, (Cglm.glm_vec2_addadd a b dest).list.map .f)]) :=
  C55_vec2_addadd h_a h_b h_dest r_dest (Or.inr s_a_dest) (Or.inr s_b_dest)
example (a : V2 α) (b : V2 α) (dest : V2 α) : let mem : Mem α := [⟨false, a.list.map .f⟩, ⟨false, b.list.map .f⟩, ⟨true, dest.list.map .f⟩]
    Holds mem (0, 0) a.list ∧ Holds mem (1, 0) b.list ∧ Holds mem (2, 0) dest.list ∧ Room mem (2, 0) 2 ∧ Apart (0, 0) 2 (2, 0) 2 ∧ Apart (1, 0) 2 (2, 0) 2 :=
  ⟨.block rfl, .block rfl, .block rfl, .block rfl rfl, Or.inl (by decide), Or.inl (by decide)⟩

theorem C56_vec2_subadd {mem : Mem α} {aP bP destP : Ptr} {a : V2 α} {b : V2 α} {dest : V2 α} (h_a : Holds mem aP a.list) (h_b : Holds mem bP b.list) (h_dest : Holds mem destP dest.list) (r_dest : Room mem destP 2) (s_a_dest : Apart aP 2 destP 2) (s_b_dest : Apart bP 2 destP 2) :
    C.glm_vec2_subadd.run mem [aP.val, bP.val, destP.val] =
      some (none, writes mem [(destP, (Cglm.glm_vec2_subadd a b dest).list.map .f)]) :=
  C55_vec2_subadd h_a h_b h_dest r_dest (Or.inr s_a_dest) (Or.inr s_b_dest)
example (a : V2 α) (b : V2 α) (dest : V2 α) : let mem : Mem α := [⟨false, a.list.map .f⟩, ⟨false, b.list.map .f⟩, ⟨true, dest.list.map .f⟩]
    Holds mem (0, 0) a.list ∧ Holds mem (1, 0) b.list ∧ Holds mem (2, 0) dest.list ∧ Room mem (2, 0) 2 ∧ Apart (0, 0) 2 (2, 0) 2 ∧ Apart (1, 0) 2 (2, 0) 2 :=
  ⟨.block rfl, .block rfl, .block rfl, .block rfl rfl, Or.inl (by decide), Or.inl (by decide)⟩

theorem C56_vec2_muladd {mem : Mem α} {aP bP destP : Ptr} {a : V2 α} {b : V2 α} {dest : V2 α} (h_a : Holds mem aP a.list) (h_b : Holds mem bP b.list) (h_dest : Holds mem destP dest.list) (r_dest : Room mem destP 2) (s_a_dest : Apart aP 2 destP 2) (s_b_dest : Apart bP 2 destP 2) :
    C.glm_vec2_muladd.run mem [aP.val, bP.val, destP.val] =
      some (none, writes mem [(destP, (Cglm.glm_vec2_muladd a b dest).list.map .f)]) :=
  C55_vec2_muladd h_a h_b h_dest r_dest (Or.inr s_a_dest) (Or.inr s_b_dest)
example (a : V2 α) (b : V2 α) (dest : V2 α) : let mem : Mem α := [⟨false, a.list.map .f⟩, ⟨false, b.list.map .f⟩, ⟨true, dest.list.map .f⟩]
    Holds mem (0, 0) a.list ∧ Holds mem (1, 0) b.list ∧ Holds mem (2, 0) dest.list ∧ Room mem (2, 0) 2 ∧ Apart (0, 0) 2 (2, 0) 2 ∧ Apart (1, 0) 2 (2, 0) 2 :=
  ⟨.block rfl, .block rfl, .block rfl, .block rfl rfl, Or.inl (by decide), Or.inl (by decide)⟩

theorem C56_vec2_muladds {mem : Mem α} {aP destP : Ptr} {a : V2 α} (s : α) {dest : V2 α} (h_a : Holds mem aP a.list) (h_dest : Holds mem destP dest.list) (r_dest : Room mem destP 2) (s_a_dest : Apart aP 2 destP 2) :
    C.glm_vec2_muladds.run mem [aP.val, .f s, destP.val] =
      some (none, writes mem [(destP, (Cglm.glm_vec2_muladds a s dest).list.map .f)]) :=
  C55_vec2_muladds s h_a h_dest r_dest (Or.inr s_a_dest)
example (a : V2 α) (dest : V2 α) : let mem : Mem α := [⟨false, a.list.map .f⟩, ⟨true, dest.list.map .f⟩]
    Holds mem (0, 0) a.list ∧ Holds mem (1, 0) dest.list ∧ Room mem (1, 0) 2 ∧ Apart (0, 0) 2 (1, 0) 2 :=
  ⟨.block rfl, .block rfl, .block rfl rfl, Or.inl (by decide)⟩

theorem C56_vec2_maxadd {mem : Mem α} {aP bP destP : Ptr} {a : V2 α} {b : V2 α} {dest : V2 α} (h_a : Holds mem aP a.list) (h_b : Holds mem bP b.list) (h_dest : Holds mem destP dest.list) (r_dest : Room mem destP 2) (s_a_dest : Apart aP 2 destP 2) (s_b_dest : Apart bP 2 destP 2) :
    C.glm_vec2_maxadd.run mem [aP.val, bP.val, destP.val] =
      some (none, writes mem [(destP, (Cglm.glm_vec2_maxadd a b dest).list.map .f)]) :=
  C55_vec2_maxadd h_a h_b h_dest r_dest (Or.inr s_a_dest) (Or.inr s_b_dest)
example (a : V2 α) (b : V2 α) (dest : V2 α) : let mem : Mem α := [⟨false, a.list.map .f⟩, ⟨false, b.list.map .f⟩, ⟨true, dest.list.map .f⟩]
    Holds mem (0, 0) a.list ∧ Holds mem (1, 0) b.list ∧ Holds mem (2, 0) dest.list ∧ Room mem (2, 0) 2 ∧ Apart (0, 0) 2 (2, 0) 2 ∧ Apart (1, 0) 2 (2, 0) 2 :=
  ⟨.block rfl, .block rfl, .block rfl, .block rfl rfl, Or.inl (by decide), Or.inl (by decide)⟩

theorem C56_vec2_minadd {mem : Mem α} {aP bP destP : Ptr} {a : V2 α} {b : V2 α} {dest : V2 α} (h_a : Holds mem aP a.list) (h_b : Holds mem bP b.list) (h_dest : Holds mem destP dest.list) (r_dest : Room mem destP 2) (s_a_dest : Apart aP 2 destP 2) (s_b_dest : Apart bP 2 destP 2) :
    C.glm_vec2_minadd.run mem [aP.val, bP.val, destP.val] =
      some (none, writes mem [(destP, (Cglm.glm_vec2_minadd a b dest).list.map .f)]) :=
  C55_vec2_minadd h_a h_b h_dest r_dest (Or.inr s_a_dest) (Or.inr s_b_dest)
example (a : V2 α) (b : V2 α) (dest : V2 α) : let mem : Mem α := [⟨false, a.list.map .f⟩, ⟨false, b.list.map .f⟩, ⟨true, dest.list.map .f⟩]
    Holds mem (0, 0) a.list ∧ Holds mem (1, 0) b.list ∧ Holds mem (2, 0) dest.list ∧ Room mem (2, 0) 2 ∧ Apart (0, 0) 2 (2, 0) 2 ∧ Apart (1, 0) 2 (2, 0) 2 :=
  ⟨.block rfl, .block rfl, .block rfl, .block rfl rfl, Or.inl (by decide), Or.inl (by decide)⟩

theorem C56_vec2_subsub {mem : Mem α} {aP bP destP : Ptr} {a : V2 α} {b : V2 α} {dest : V2 α} (h_a : Holds mem aP a.list) (h_b : Holds mem bP b.list) (h_dest : Holds mem destP dest.list) (r_dest : Room mem destP 2) (s_a_dest : Apart aP 2 destP 2) (s_b_dest : Apart bP 2 destP 2) :
    C.glm_vec2_subsub.run mem [aP.val, bP.val, destP.val] =
      some (none, writes mem [(destP, (Cglm.glm_vec2_subsub a b dest).list.map .f)]) :=
  C55_vec2_subsub h_a h_b h_dest r_dest (Or.inr s_a_dest) (Or.inr s_b_dest)
example (a : V2 α) (b : V2 α) (dest : V2 α) : let mem : Mem α := [⟨false, a.list.map .f⟩, ⟨false, b.list.map .f⟩, ⟨true, dest.list.map .f⟩]
    Holds mem (0, 0) a.list ∧ Holds mem (1, 0) b.list ∧ Holds mem (2, 0) dest.list ∧ Room mem (2, 0) 2 ∧ Apart (0, 0) 2 (2, 0) 2 ∧ Apart (1, 0) 2 (2, 0) 2 :=
  ⟨.block rfl, .block rfl, .block rfl, .block rfl rfl, Or.inl (by decide), Or.inl (by decide)⟩

theorem C56_vec2_addsub {mem : Mem α} {aP bP destP : Ptr} {a : V2 α} {b : V2 α} {dest : V2 α} (h_a : Holds mem aP a.list) (h_b : Holds mem bP b.list) (h_dest : Holds mem destP dest.list) (r_dest : Room mem destP 2) (s_a_dest : Apart aP 2 destP 2) (s_b_dest : Apart bP 2 destP 2) :
    C.glm_vec2_addsub.run mem [aP.val, bP.val, destP.val] =
      some (none, writes mem [(destP, (Cglm.glm_vec2_addsub a b dest).list.map .f)]) :=
  C55_vec2_addsub h_a h_b h_dest r_dest (Or.inr s_a_dest) (Or.inr s_b_dest)
example (a : V2 α) (b : V2 α) (dest : V2 α) : let mem : Mem α := [⟨false, a.list.map .f⟩, ⟨false, b.list.map .f⟩, ⟨true, dest.list.map .f⟩]
    Holds mem (0, 0) a.list ∧ Holds mem (1, 0) b.list ∧ Holds mem (2, 0) dest.list ∧ Room mem (2, 0) 2 ∧ Apart (0, 0) 2 (2, 0) 2 ∧ Apart (1, 0) 2 (2, 0) 2 :=
  ⟨.block rfl, .block rfl, .block rfl, .block rfl rfl, Or.inl (by decide), Or.inl (by decide)⟩

theorem C56_vec2_mulsub {mem : Mem α} {aP bP destP : Ptr} {a : V2 α} {b : V2 α} {dest : V2 α} (h_a : Holds mem aP a.list) (h_b : Holds mem bP b.list) (h_dest : Holds mem destP dest.list) (r_dest : Room mem destP 2) (s_a_dest : Apart aP 2 destP 2) (s_b_dest : Apart bP 2 destP 2) :
    C.glm_vec2_mulsub.run mem [aP.val, bP.val, destP.val] =
      some (none, writes mem [(destP, (Cglm.glm_vec2_mulsub a b dest).list.map .f)]) :=
  C55_vec2_mulsub h_a h_b h_dest r_dest (Or.inr s_a_dest) (Or.inr s_b_dest)
example (a : V2 α) (b : V2 α) (dest : V2 α) : let mem : Mem α := [⟨false, a.list.map .f⟩, ⟨false, b.list.map .f⟩, ⟨true, dest.list.map .f⟩]
    Holds mem (0, 0) a.list ∧ Holds mem (1, 0) b.list ∧ Holds mem (2, 0) dest.list ∧ Room mem (2, 0) 2 ∧ Apart (0, 0) 2 (2, 0) 2 ∧ Apart (1, 0) 2 (2, 0) 2 :=
  ⟨.block rfl, .block rfl, .block rfl, .block rfl rfl, Or.inl (by decide), Or.inl (by decide)⟩

theorem C56_vec2_mulsubs {mem : Mem α} {aP destP : Ptr} {a : V2 α} (s : α) {dest : V2 α} (h_a : Holds mem aP a.list) (h_dest : Holds mem destP dest.list) (r_dest : Room mem destP 2) (s_a_dest : Apart aP 2 destP 2) :
    C.glm_vec2_mulsubs.run mem [aP.val, .f s, destP.val] =
      some (none, writes mem [(destP, (Cglm.glm_vec2_mulsubs a s dest).list.map .f)]) :=
  C55_vec2_mulsubs s h_a h_dest r_dest (Or.inr s_a_dest)
example (a : V2 α) (dest : V2 α) : let mem : Mem α := [⟨false, a.list.map .f⟩, ⟨true, dest.list.map .f⟩]
    Holds mem (0, 0) a.list ∧ Holds mem (1, 0) dest.list ∧ Room mem (1, 0) 2 ∧ Apart (0, 0) 2 (1, 0) 2 :=
  ⟨.block rfl, .block rfl, .block rfl rfl, Or.inl (by decide)⟩

theorem C56_vec2_maxsub {mem : Mem α} {aP bP destP : Ptr} {a : V2 α} {b : V2 α} {dest : V2 α} (h_a : Holds mem aP a.list) (h_b : Holds mem bP b.list) (h_dest : Holds mem destP dest.list) (r_dest : Room mem destP 2) (s_a_dest : Apart aP 2 destP 2) (s_b_dest : Apart bP 2 destP 2) :
    C.glm_vec2_maxsub.run mem [aP.val, bP.val, destP.val] =
      some (none, writes mem [(destP, (Cglm.glm_vec2_maxsub a b dest).list.map .f)]) :=
  C55_vec2_maxsub h_a h_b h_dest r_dest (Or.inr s_a_dest) (Or.inr s_b_dest)
example (a : V2 α) (b : V2 α) (dest : V2 α) : let mem : Mem α := [⟨false, a.list.map .f⟩, ⟨false, b.list.map .f⟩, ⟨true, dest.list.map .f⟩]
    Holds mem (0, 0) a.list ∧ Holds mem (1, 0) b.list ∧ Holds mem (2, 0) dest.list ∧ Room mem (2, 0) 2 ∧ Apart (0, 0) 2 (2, 0) 2 ∧ Apart (1, 0) 2 (2, 0) 2 :=
  ⟨.block rfl, .block rfl, .block rfl, .block rfl rfl, Or.inl (by decide), Or.inl (by decide)⟩

theorem C56_vec2_minsub {mem : Mem α} {aP bP destP : Ptr} {a : V2 α} {b : V2 α} {dest : V2 α} (h_a : Holds mem aP a.list) (h_b : Holds mem bP b.list) (h_dest : Holds mem destP dest.list) (r_dest : Room mem destP 2) (s_a_dest : Apart aP 2 destP 2) (s_b_dest : Apart bP 2 destP 2) :
    C.glm_vec2_minsub.run mem [aP.val, bP.val, destP.val] =
      some (none, writes mem [(destP, (Cglm.glm_vec2_minsub a b dest).list.map .f)]) :=
  C55_vec2_minsub h_a h_b h_dest r_dest (Or.inr s_a_dest) (Or.inr s_b_dest)
example (a : V2 α) (b : V2 α) (dest : V2 α) : let mem : Mem α := [⟨false, a.list.map .f⟩, ⟨false, b.list.map .f⟩, ⟨true, dest.list.map .f⟩]
    Holds mem (0, 0) a.list ∧ Holds mem (1, 0) b.list ∧ Holds mem (2, 0) dest.list ∧ Room mem (2, 0) 2 ∧ Apart (0, 0) 2 (2, 0) 2 ∧ Apart (1, 0) 2 (2, 0) 2 :=
  ⟨.block rfl, .block rfl, .block rfl, .block rfl rfl, Or.inl (by decide), Or.inl (by decide)⟩

theorem C56_vec2_negate_to {mem : Mem α} {vP destP : Ptr} {v : V2 α} (h_v : Holds mem vP v.list) (r_dest : Room mem destP 2) (s_v_dest : Apart vP 2 destP 2) :
    C.glm_vec2_negate_to.run mem [vP.val, destP.val] =
      some (none, writes mem [(destP, (Cglm.glm_vec2_negate_to v).list.map .f)]) :=
  C55_vec2_negate_to h_v r_dest (Or.inr s_v_dest)
example (v : V2 α) : let mem : Mem α := [⟨false, v.list.map .f⟩, ⟨true, List.replicate 2 .undef⟩]
    Holds mem (0, 0) v.list ∧ Room mem (1, 0) 2 ∧ Apart (0, 0) 2 (1, 0) 2 :=
  ⟨.block rfl, .block rfl rfl, Or.inl (by decide)⟩

theorem C56_vec2_negate {mem : Mem α} {vP : Ptr} {v : V2 α} (h_v : Holds mem vP v.list) (r_v : Room mem vP 2) :
    C.glm_vec2_negate.run mem [vP.val] =
      some (none, writes mem [(vP, (Cglm.glm_vec2_negate v).list.map .f)]) := by
  exact transferL ((R.nil _).addW h_v.has r_v .nil) (.p rfl .nil) (glm_vec2_negate_run _) (DT.val_done _) rfl rfl
example (v : V2 α) : let mem : Mem α := [⟨true, v.list.map .f⟩]
    Holds mem (0, 0) v.list ∧ Room mem (0, 0) 2 :=
  ⟨.block rfl, .block rfl rfl⟩

theorem C56_vec2_normalize {mem : Mem α} {vP : Ptr} {v : V2 α} (h_v : Holds mem vP v.list) (r_v : Room mem vP 2) :
    C.glm_vec2_normalize.run mem [vP.val] =
      some (none, writes mem [(vP, (Cglm.glm_vec2_normalize v).list.map .f)]) := by
  exact transferL ((R.nil _).addW h_v.has r_v .nil) (.p rfl .nil) (glm_vec2_normalize_run _) (DT.val_map_eq (glm_vec2_normalize_dt_val _) rfl) rfl rfl
example (v : V2 α) : let mem : Mem α := [⟨true, v.list.map .f⟩]
    Holds mem (0, 0) v.list ∧ Room mem (0, 0) 2 :=
  ⟨.block rfl, .block rfl rfl⟩

theorem C56_vec2_normalize_to {mem : Mem α} {vP destP : Ptr} {v : V2 α} (h_v : Holds mem vP v.list) (r_dest : Room mem destP 2) (s_v_dest : Apart vP 2 destP 2) :
    C.glm_vec2_normalize_to.run mem [vP.val, destP.val] =
      some (none, writes mem [(destP, (Cglm.glm_vec2_normalize_to v).list.map .f)]) :=
  C55_vec2_normalize_to h_v r_dest (Or.inr s_v_dest)
example (v : V2 α) : let mem : Mem α := [⟨false, v.list.map .f⟩, ⟨true, List.replicate 2 .undef⟩]
    Holds mem (0, 0) v.list ∧ Room mem (1, 0) 2 ∧ Apart (0, 0) 2 (1, 0) 2 :=
  ⟨.block rfl, .block rfl rfl, Or.inl (by decide)⟩

theorem C56_vec2_rotate {mem : Mem α} {vP destP : Ptr} {v : V2 α} (angle : α) (h_v : Holds mem vP v.list) (r_dest : Room mem destP 2) (s_v_dest : Apart vP 2 destP 2) :
    C.glm_vec2_rotate.run mem [vP.val, .f angle, destP.val] =
      some (none, writes mem [(destP, (Cglm.glm_vec2_rotate v angle).list.map .f)]) :=
  C55_vec2_rotate angle h_v r_dest (Or.inr s_v_dest)
example (v : V2 α) : let mem : Mem α := [⟨false, v.list.map .f⟩, ⟨true, List.replicate 2 .undef⟩]
    Holds mem (0, 0) v.list ∧ Room mem (1, 0) 2 ∧ Apart (0, 0) 2 (1, 0) 2 :=
  ⟨.block rfl, .block rfl rfl, Or.inl (by decide)⟩

theorem C56_vec2_center {mem : Mem α} {aP bP destP : Ptr} {a : V2 α} {b : V2 α} (h_a : Holds mem aP a.list) (h_b : Holds mem bP b.list) (r_dest : Room mem destP 2) (s_a_dest : Apart aP 2 destP 2) (s_b_dest : Apart bP 2 destP 2) :
    C.glm_vec2_center.run mem [aP.val, bP.val, destP.val] =
      some (none, writes mem [(destP, (Cglm.glm_vec2_center a b).list.map .f)]) :=
  C55_vec2_center h_a h_b r_dest (Or.inr s_a_dest) (Or.inr s_b_dest)
example (a : V2 α) (b : V2 α) : let mem : Mem α := [⟨false, a.list.map .f⟩, ⟨false, b.list.map .f⟩, ⟨true, List.replicate 2 .undef⟩]
    Holds mem (0, 0) a.list ∧ Holds mem (1, 0) b.list ∧ Room mem (2, 0) 2 ∧ Apart (0, 0) 2 (2, 0) 2 ∧ Apart (1, 0) 2 (2, 0) 2 :=
  ⟨.block rfl, .block rfl, .block rfl rfl, Or.inl (by decide), Or.inl (by decide)⟩

theorem C56_vec2_distance2 {mem : Mem α} {aP bP : Ptr} {a : V2 α} {b : V2 α} (h_a : Holds mem aP a.list) (h_b : Holds mem bP b.list) :
    C.glm_vec2_distance2.run mem [aP.val, bP.val] =
      some (some (.f (Cglm.glm_vec2_distance2 a b)), mem) := by
  exact transferL (((R.nil _).addR h_b.has .nil).addR h_a.has (.skip .nil)) (.p rfl (.p rfl .nil)) (glm_vec2_distance2_run _ _) (DT.val_done _) rfl rfl
example (a : V2 α) (b : V2 α) : let mem : Mem α := [⟨false, a.list.map .f⟩, ⟨false, b.list.map .f⟩]
    Holds mem (0, 0) a.list ∧ Holds mem (1, 0) b.list :=
  ⟨.block rfl, .block rfl⟩

theorem C56_vec2_distance {mem : Mem α} {aP bP : Ptr} {a : V2 α} {b : V2 α} (h_a : Holds mem aP a.list) (h_b : Holds mem bP b.list) :
    C.glm_vec2_distance.run mem [aP.val, bP.val] =
      some (some (.f (Cglm.glm_vec2_distance a b)), mem) := by
  exact transferL (((R.nil _).addR h_b.has .nil).addR h_a.has (.skip .nil)) (.p rfl (.p rfl .nil)) (glm_vec2_distance_run _ _) (DT.val_done _) rfl rfl
example (a : V2 α) (b : V2 α) : let mem : Mem α := [⟨false, a.list.map .f⟩, ⟨false, b.list.map .f⟩]
    Holds mem (0, 0) a.list ∧ Holds mem (1, 0) b.list :=
  ⟨.block rfl, .block rfl⟩

theorem C56_vec2_maxv {mem : Mem α} {aP bP destP : Ptr} {a : V2 α} {b : V2 α} (h_a : Holds mem aP a.list) (h_b : Holds mem bP b.list) (r_dest : Room mem destP 2) (s_a_dest : Apart aP 2 destP 2) (s_b_dest : Apart bP 2 destP 2) :
    C.glm_vec2_maxv.run mem [aP.val, bP.val, destP.val] =
      some (none, writes mem [(destP, (Cglm.glm_vec2_maxv a b).list.map .f)]) :=
  C55_vec2_maxv h_a h_b r_dest (Or.inr s_a_dest) (Or.inr s_b_dest)
example (a : V2 α) (b : V2 α) : let mem : Mem α := [⟨false, a.list.map .f⟩, ⟨false, b.list.map .f⟩, ⟨true, List.replicate 2 .undef⟩]
    Holds mem (0, 0) a.list ∧ Holds mem (1, 0) b.list ∧ Room mem (2, 0) 2 ∧ Apart (0, 0) 2 (2, 0) 2 ∧ Apart (1, 0) 2 (2, 0) 2 :=
  ⟨.block rfl, .block rfl, .block rfl rfl, Or.inl (by decide), Or.inl (by decide)⟩

theorem C56_vec2_minv {mem : Mem α} {aP bP destP : Ptr} {a : V2 α} {b : V2 α} (h_a : Holds mem aP a.list) (h_b : Holds mem bP b.list) (r_dest : Room mem destP 2) (s_a_dest : Apart aP 2 destP 2) (s_b_dest : Apart bP 2 destP 2) :
    C.glm_vec2_minv.run mem [aP.val, bP.val, destP.val] =
      some (none, writes mem [(destP, (Cglm.glm_vec2_minv a b).list.map .f)]) :=
  C55_vec2_minv h_a h_b r_dest (Or.inr s_a_dest) (Or.inr s_b_dest)
example (a : V2 α) (b : V2 α) : let mem : Mem α := [⟨false, a.list.map .f⟩, ⟨false, b.list.map .f⟩, ⟨true, List.replicate 2 .undef⟩]
    Holds mem (0, 0) a.list ∧ Holds mem (1, 0) b.list ∧ Room mem (2, 0) 2 ∧ Apart (0, 0) 2 (2, 0) 2 ∧ Apart (1, 0) 2 (2, 0) 2 :=
  ⟨.block rfl, .block rfl, .block rfl rfl, Or.inl (by decide), Or.inl (by decide)⟩

theorem C56_vec2_clamp {mem : Mem α} {vP : Ptr} {v : V2 α} (minval : α) (maxval : α) (h_v : Holds mem vP v.list) (r_v : Room mem vP 2) :
    C.glm_vec2_clamp.run mem [vP.val, .f minval, .f maxval] =
      some (none, writes mem [(vP, (Cglm.glm_vec2_clamp v minval maxval).list.map .f)]) := by
  exact transferL ((R.nil _).addW h_v.has r_v .nil) (.p rfl (.f (.f .nil))) (glm_vec2_clamp_run _ _ _) (DT.val_done _) rfl rfl
example (v : V2 α) : let mem : Mem α := [⟨true, v.list.map .f⟩]
    Holds mem (0, 0) v.list ∧ Room mem (0, 0) 2 :=
  ⟨.block rfl, .block rfl rfl⟩

theorem C56_vec2_lerp {mem : Mem α} {frmP toP destP : Ptr} {frm : V2 α} {«to» : V2 α} (t : α) (h_frm : Holds mem frmP frm.list) (h_to : Holds mem toP «to».list) (r_dest : Room mem destP 2) (s_frm_dest : Apart frmP 2 destP 2) (s_to_dest : Apart toP 2 destP 2) :
    C.glm_vec2_lerp.run mem [frmP.val, toP.val, .f t, destP.val] =
      some (none, writes mem [(destP, (Cglm.glm_vec2_lerp frm «to» t).list.map .f)]) :=
  C55_vec2_lerp t h_frm h_to r_dest (Or.inr s_frm_dest) (Or.inr s_to_dest)
example (frm : V2 α) («to» : V2 α) : let mem : Mem α := [⟨false, frm.list.map .f⟩, ⟨false, «to».list.map .f⟩, ⟨true, List.replicate 2 .undef⟩]
    Holds mem (0, 0) frm.list ∧ Holds mem (1, 0) «to».list ∧ Room mem (2, 0) 2 ∧ Apart (0, 0) 2 (2, 0) 2 ∧ Apart (1, 0) 2 (2, 0) 2 :=
  ⟨.block rfl, .block rfl, .block rfl rfl, Or.inl (by decide), Or.inl (by decide)⟩

theorem C56_vec2_step {mem : Mem α} {edgeP xP destP : Ptr} {edge : V2 α} {x : V2 α} (h_edge : Holds mem edgeP edge.list) (h_x : Holds mem xP x.list) (r_dest : Room mem destP 2) (s_edge_dest : Apart edgeP 2 destP 2) (s_x_dest : Apart xP 2 destP 2) :
    C.glm_vec2_step.run mem [edgeP.val, xP.val, destP.val] =
      some (none, writes mem [(destP, (Cglm.glm_vec2_step edge x).list.map .f)]) :=
  C55_vec2_step h_edge h_x r_dest (Or.inr s_edge_dest) (Or.inr s_x_dest)
example (edge : V2 α) (x : V2 α) : let mem : Mem α := [⟨false, edge.list.map .f⟩, ⟨false, x.list.map .f⟩, ⟨true, List.replicate 2 .undef⟩]
    Holds mem (0, 0) edge.list ∧ Holds mem (1, 0) x.list ∧ Room mem (2, 0) 2 ∧ Apart (0, 0) 2 (2, 0) 2 ∧ Apart (1, 0) 2 (2, 0) 2 :=
  ⟨.block rfl, .block rfl, .block rfl rfl, Or.inl (by decide), Or.inl (by decide)⟩

theorem C56_vec2_make {mem : Mem α} {srcP destP : Ptr} {src : V2 α} (h_src : Holds mem srcP src.list) (r_dest : Room mem destP 2) (s_src_dest : Apart srcP 2 destP 2) :
    C.glm_vec2_make.run mem [srcP.val, destP.val] =
      some (none, writes mem [(destP, (Cglm.glm_vec2_make src).list.map .f)]) :=
  C55_vec2_make h_src r_dest (Or.inr s_src_dest)
example (src : V2 α) : let mem : Mem α := [⟨false, src.list.map .f⟩, ⟨true, List.replicate 2 .undef⟩]
    Holds mem (0, 0) src.list ∧ Room mem (1, 0) 2 ∧ Apart (0, 0) 2 (1, 0) 2 :=
  ⟨.block rfl, .block rfl rfl, Or.inl (by decide)⟩

theorem C56_vec2_reflect {mem : Mem α} {vP nP destP : Ptr} {v : V2 α} {n : V2 α} (h_v : Holds mem vP v.list) (h_n : Holds mem nP n.list) (r_dest : Room mem destP 2) (s_v_dest : Apart vP 2 destP 2) (s_n_dest : Apart nP 2 destP 2) :
    C.glm_vec2_reflect.run mem [vP.val, nP.val, destP.val] =
      some (none, writes mem [(destP, (Cglm.glm_vec2_reflect v n).list.map .f)]) :=
  C55_vec2_reflect h_v h_n r_dest (Or.inr s_v_dest) (Or.inr s_n_dest)
example (v : V2 α) (n : V2 α) : let mem : Mem α := [⟨false, v.list.map .f⟩, ⟨false, n.list.map .f⟩, ⟨true, List.replicate 2 .undef⟩]
    Holds mem (0, 0) v.list ∧ Holds mem (1, 0) n.list ∧ Room mem (2, 0) 2 ∧ Apart (0, 0) 2 (2, 0) 2 ∧ Apart (1, 0) 2 (2, 0) 2 :=
  ⟨.block rfl, .block rfl, .block rfl rfl, Or.inl (by decide), Or.inl (by decide)⟩

theorem C56_vec2_refract {mem : Mem α} {vP nP destP : Ptr} {v : V2 α} {n : V2 α} (eta : α) (h_v : Holds mem vP v.list) (h_n : Holds mem nP n.list) (r_dest : Room mem destP 2) (s_v_dest : Apart vP 2 destP 2) (s_n_dest : Apart nP 2 destP 2) :
    C.glm_vec2_refract.run mem [vP.val, nP.val, .f eta, destP.val] =
      some (some (.b (Cglm.glm_vec2_refract v n eta).1), writes mem [(destP, (Cglm.glm_vec2_refract v n eta).2.list.map .f)]) :=
  C55_vec2_refract eta h_v h_n r_dest (Or.inr s_v_dest) s_n_dest
example (v : V2 α) (n : V2 α) : let mem : Mem α := [⟨false, v.list.map .f⟩, ⟨false, n.list.map .f⟩, ⟨true, List.replicate 2 .undef⟩]
    Holds mem (0, 0) v.list ∧ Holds mem (1, 0) n.list ∧ Room mem (2, 0) 2 ∧ Apart (0, 0) 2 (2, 0) 2 ∧ Apart (1, 0) 2 (2, 0) 2 :=
  ⟨.block rfl, .block rfl, .block rfl rfl, Or.inl (by decide), Or.inl (by decide)⟩

end Cglm

end C56Vec2

section C56Vec2Ext

/-!
# C56: memory safety and framing (include/cglm/vec2-ext.h)

Called with initialised inputs and a writable destination that does not overlap them, the function is defined,
returns the value-level result and changes no memory but its destination.
-/

set_option linter.unusedVariables false
set_option linter.unusedSectionVars false

namespace Cglm
open CMem

variable {α : Type} [Add α] [Sub α] [Mul α] [Div α] [Neg α] [CFloat α]

theorem C56_vec2_fill {mem : Mem α} {vP : Ptr} (val : α) (r_v : Room mem vP 2) :
    C.glm_vec2_fill.run mem [vP.val, .f val] =
      some (none, writes mem [(vP, (Cglm.glm_vec2_fill val).list.map .f)]) := by
  exact transferL ((R.nil _).addW r_v.has r_v .nil) (.p rfl (.f .nil)) (glm_vec2_fill_run _) (DT.val_done _) rfl rfl
example : let mem : Mem α := [⟨true, List.replicate 2 .undef⟩]
    Room mem (0, 0) 2 :=
  .block rfl rfl

theorem C56_vec2_eq {mem : Mem α} {vP : Ptr} {v : V2 α} (val : α) (h_v : Holds mem vP v.list) :
    C.glm_vec2_eq.run mem [vP.val, .f val] =
      some (some (.b (Cglm.glm_vec2_eq v val)), mem) := by
  exact transferL ((R.nil _).addR h_v.has .nil) (.p rfl (.f .nil)) (glm_vec2_eq_run _ _) (DT.val_done _) rfl rfl
example (v : V2 α) : let mem : Mem α := [⟨false, v.list.map .f⟩]
    Holds mem (0, 0) v.list :=
  .block rfl

theorem C56_vec2_eq_eps {mem : Mem α} {vP : Ptr} {v : V2 α} (val : α) (h_v : Holds mem vP v.list) :
    C.glm_vec2_eq_eps.run mem [vP.val, .f val] =
      some (some (.b (Cglm.glm_vec2_eq_eps v val)), mem) := by
  exact transferL ((R.nil _).addR h_v.has .nil) (.p rfl (.f .nil)) (glm_vec2_eq_eps_run _ _) (DT.val_done _) rfl rfl
example (v : V2 α) : let mem : Mem α := [⟨false, v.list.map .f⟩]
    Holds mem (0, 0) v.list :=
  .block rfl

theorem C56_vec2_eq_all {mem : Mem α} {vP : Ptr} {v : V2 α} (h_v : Holds mem vP v.list) :
    C.glm_vec2_eq_all.run mem [vP.val] =
      some (some (.b (Cglm.glm_vec2_eq_all v)), mem) := by
  exact transferL ((R.nil _).addR h_v.has .nil) (.p rfl .nil) (glm_vec2_eq_all_run _) (DT.val_done _) rfl rfl
example (v : V2 α) : let mem : Mem α := [⟨false, v.list.map .f⟩]
    Holds mem (0, 0) v.list :=
  .block rfl

theorem C56_vec2_eqv {mem : Mem α} {aP bP : Ptr} {a : V2 α} {b : V2 α} (h_a : Holds mem aP a.list) (h_b : Holds mem bP b.list) :
    C.glm_vec2_eqv.run mem [aP.val, bP.val] =
      some (some (.b (Cglm.glm_vec2_eqv a b)), mem) := by
  exact transferL (((R.nil _).addR h_b.has .nil).addR h_a.has (.skip .nil)) (.p rfl (.p rfl .nil)) (glm_vec2_eqv_run _ _) (DT.val_done _) rfl rfl
example (a : V2 α) (b : V2 α) : let mem : Mem α := [⟨false, a.list.map .f⟩, ⟨false, b.list.map .f⟩]
    Holds mem (0, 0) a.list ∧ Holds mem (1, 0) b.list :=
  ⟨.block rfl, .block rfl⟩

theorem C56_vec2_eqv_eps {mem : Mem α} {aP bP : Ptr} {a : V2 α} {b : V2 α} (h_a : Holds mem aP a.list) (h_b : Holds mem bP b.list) :
    C.glm_vec2_eqv_eps.run mem [aP.val, bP.val] =
      some (some (.b (Cglm.glm_vec2_eqv_eps a b)), mem) := by
  exact transferL (((R.nil _).addR h_b.has .nil).addR h_a.has (.skip .nil)) (.p rfl (.p rfl .nil)) (glm_vec2_eqv_eps_run _ _) (DT.val_done _) rfl rfl
example (a : V2 α) (b : V2 α) : let mem : Mem α := [⟨false, a.list.map .f⟩, ⟨false, b.list.map .f⟩]
    Holds mem (0, 0) a.list ∧ Holds mem (1, 0) b.list :=
  ⟨.block rfl, .block rfl⟩

theorem C56_vec2_max {mem : Mem α} {vP : Ptr} {v : V2 α} (h_v : Holds mem vP v.list) :
    C.glm_vec2_max.run mem [vP.val] =
      some (some (.f (Cglm.glm_vec2_max v)), mem) := by
  exact transferL ((R.nil _).addR h_v.has .nil) (.p rfl .nil) (glm_vec2_max_run _) (DT.val_done _) rfl rfl
example (v : V2 α) : let mem : Mem α := [⟨false, v.list.map .f⟩]
    Holds mem (0, 0) v.list :=
  .block rfl

theorem C56_vec2_min {mem : Mem α} {vP : Ptr} {v : V2 α} (h_v : Holds mem vP v.list) :
    C.glm_vec2_min.run mem [vP.val] =
      some (some (.f (Cglm.glm_vec2_min v)), mem) := by
  exact transferL ((R.nil _).addR h_v.has .nil) (.p rfl .nil) (glm_vec2_min_run _) (DT.val_done _) rfl rfl
example (v : V2 α) : let mem : Mem α := [⟨false, v.list.map .f⟩]
    Holds mem (0, 0) v.list :=
  .block rfl

theorem C56_vec2_isnan {mem : Mem α} {vP : Ptr} {v : V2 α} (h_v : Holds mem vP v.list) :
    C.glm_vec2_isnan.run mem [vP.val] =
      some (some (.b (Cglm.glm_vec2_isnan v)), mem) := by
  exact transferL ((R.nil _).addR h_v.has .nil) (.p rfl .nil) (glm_vec2_isnan_run _) (DT.val_done _) rfl rfl
example (v : V2 α) : let mem : Mem α := [⟨false, v.list.map .f⟩]
    Holds mem (0, 0) v.list :=
  .block rfl

theorem C56_vec2_isinf {mem : Mem α} {vP : Ptr} {v : V2 α} (h_v : Holds mem vP v.list) :
    C.glm_vec2_isinf.run mem [vP.val] =
      some (some (.b (Cglm.glm_vec2_isinf v)), mem) := by
  exact transferL ((R.nil _).addR h_v.has .nil) (.p rfl .nil) (glm_vec2_isinf_run _) (DT.val_done _) rfl rfl
example (v : V2 α) : let mem : Mem α := [⟨false, v.list.map .f⟩]
    Holds mem (0, 0) v.list :=
  .block rfl

theorem C56_vec2_isvalid {mem : Mem α} {vP : Ptr} {v : V2 α} (h_v : Holds mem vP v.list) :
    C.glm_vec2_isvalid.run mem [vP.val] =
      some (some (.b (Cglm.glm_vec2_isvalid v)), mem) := by
  exact transferL ((R.nil _).addR h_v.has .nil) (.p rfl .nil) (glm_vec2_isvalid_run _) (DT.val_done _) rfl rfl
example (v : V2 α) : let mem : Mem α := [⟨false, v.list.map .f⟩]
    Holds mem (0, 0) v.list :=
  .block rfl

theorem C56_vec2_sign {mem : Mem α} {vP destP : Ptr} {v : V2 α} (h_v : Holds mem vP v.list) (r_dest : Room mem destP 2) (s_v_dest : Apart vP 2 destP 2) :
    C.glm_vec2_sign.run mem [vP.val, destP.val] =
      some (none, writes mem [(destP, (Cglm.glm_vec2_sign v).list.map .f)]) :=
  C55_vec2_sign h_v r_dest (Or.inr s_v_dest)
example (v : V2 α) : let mem : Mem α := [⟨false, v.list.map .f⟩, ⟨true, List.replicate 2 .undef⟩]
    Holds mem (0, 0) v.list ∧ Room mem (1, 0) 2 ∧ Apart (0, 0) 2 (1, 0) 2 :=
  ⟨.block rfl, .block rfl rfl, Or.inl (by decide)⟩

theorem C56_vec2_abs {mem : Mem α} {vP destP : Ptr} {v : V2 α} (h_v : Holds mem vP v.list) (r_dest : Room mem destP 2) (s_v_dest : Apart vP 2 destP 2) :
    C.glm_vec2_abs.run mem [vP.val, destP.val] =
      some (none, writes mem [(destP, (Cglm.glm_vec2_abs v).list.map .f)]) :=
  C55_vec2_abs h_v r_dest (Or.inr s_v_dest)
example (v : V2 α) : let mem : Mem α := [⟨false, v.list.map .f⟩, ⟨true, List.replicate 2 .undef⟩]
    Holds mem (0, 0) v.list ∧ Room mem (1, 0) 2 ∧ Apart (0, 0) 2 (1, 0) 2 :=
  ⟨.block rfl, .block rfl rfl, Or.inl (by decide)⟩

theorem C56_vec2_fract {mem : Mem α} {vP destP : Ptr} {v : V2 α} (h_v : Holds mem vP v.list) (r_dest : Room mem destP 2) (s_v_dest : Apart vP 2 destP 2) :
    C.glm_vec2_fract.run mem [vP.val, destP.val] =
      some (none, writes mem [(destP, (Cglm.glm_vec2_fract v).list.map .f)]) :=
  C55_vec2_fract h_v r_dest (Or.inr s_v_dest)
example (v : V2 α) : let mem : Mem α := [⟨false, v.list.map .f⟩, ⟨true, List.replicate 2 .undef⟩]
    Holds mem (0, 0) v.list ∧ Room mem (1, 0) 2 ∧ Apart (0, 0) 2 (1, 0) 2 :=
  ⟨.block rfl, .block rfl rfl, Or.inl (by decide)⟩

theorem C56_vec2_floor {mem : Mem α} {vP destP : Ptr} {v : V2 α} (h_v : Holds mem vP v.list) (r_dest : Room mem destP 2) (s_v_dest : Apart vP 2 destP 2) :
    C.glm_vec2_floor.run mem [vP.val, destP.val] =
      some (none, writes mem [(destP, (Cglm.glm_vec2_floor v).list.map .f)]) :=
  C55_vec2_floor h_v r_dest (Or.inr s_v_dest)
example (v : V2 α) : let mem : Mem α := [⟨false, v.list.map .f⟩, ⟨true, List.replicate 2 .undef⟩]
    Holds mem (0, 0) v.list ∧ Room mem (1, 0) 2 ∧ Apart (0, 0) 2 (1, 0) 2 :=
  ⟨.block rfl, .block rfl rfl, Or.inl (by decide)⟩

theorem C56_vec2_mods {mem : Mem α} {vP destP : Ptr} {v : V2 α} (s : α) (h_v : Holds mem vP v.list) (r_dest : Room mem destP 2) (s_v_dest : Apart vP 2 destP 2) :
    C.glm_vec2_mods.run mem [vP.val, .f s, destP.val] =
      some (none, writes mem [(destP, (Cglm.glm_vec2_mods v s).list.map .f)]) :=
  C55_vec2_mods s h_v r_dest (Or.inr s_v_dest)
example (v : V2 α) : let mem : Mem α := [⟨false, v.list.map .f⟩, ⟨true, List.replicate 2 .undef⟩]
    Holds mem (0, 0) v.list ∧ Room mem (1, 0) 2 ∧ Apart (0, 0) 2 (1, 0) 2 :=
  ⟨.block rfl, .block rfl rfl, Or.inl (by decide)⟩

theorem C56_vec2_sqrt {mem : Mem α} {vP destP : Ptr} {v : V2 α} (h_v : Holds mem vP v.list) (r_dest : Room mem destP 2) (s_v_dest : Apart vP 2 destP 2) :
    C.glm_vec2_sqrt.run mem [vP.val, destP.val] =
      some (none, writes mem [(destP, (Cglm.glm_vec2_sqrt v).list.map .f)]) :=
  C55_vec2_sqrt h_v r_dest (Or.inr s_v_dest)
example (v : V2 α) : let mem : Mem α := [⟨false, v.list.map .f⟩, ⟨true, List.replicate 2 .undef⟩]
    Holds mem (0, 0) v.list ∧ Room mem (1, 0) 2 ∧ Apart (0, 0) 2 (1, 0) 2 :=
  ⟨.block rfl, .block rfl rfl, Or.inl (by decide)⟩

theorem C56_vec2_complex_mul {mem : Mem α} {aP bP destP : Ptr} {a : V2 α} {b : V2 α} (h_a : Holds mem aP a.list) (h_b : Holds mem bP b.list) (r_dest : Room mem destP 2) (s_a_dest : Apart aP 2 destP 2) (s_b_dest : Apart bP 2 destP 2) :
    C.glm_vec2_complex_mul.run mem [aP.val, bP.val, destP.val] =
      some (none, writes mem [(destP, (Cglm.glm_vec2_complex_mul a b).list.map .f)]) :=
  C55_vec2_complex_mul h_a h_b r_dest (Or.inr s_a_dest) (Or.inr s_b_dest)
example (a : V2 α) (b : V2 α) : let mem : Mem α := [⟨false, a.list.map .f⟩, ⟨false, b.list.map .f⟩, ⟨true, List.replicate 2 .undef⟩]
    Holds mem (0, 0) a.list ∧ Holds mem (1, 0) b.list ∧ Room mem (2, 0) 2 ∧ Apart (0, 0) 2 (2, 0) 2 ∧ Apart (1, 0) 2 (2, 0) 2 :=
  ⟨.block rfl, .block rfl, .block rfl rfl, Or.inl (by decide), Or.inl (by decide)⟩

theorem C56_vec2_steps {mem : Mem α} {xP destP : Ptr} (edge : α) {x : V2 α} (h_x : Holds mem xP x.list) (r_dest : Room mem destP 2) (s_x_dest : Apart xP 2 destP 2) :
    C.glm_vec2_steps.run mem [.f edge, xP.val, destP.val] =
      some (none, writes mem [(destP, (Cglm.glm_vec2_steps edge x).list.map .f)]) :=
  C55_vec2_steps edge h_x r_dest (Or.inr s_x_dest)
example (x : V2 α) : let mem : Mem α := [⟨false, x.list.map .f⟩, ⟨true, List.replicate 2 .undef⟩]
    Holds mem (0, 0) x.list ∧ Room mem (1, 0) 2 ∧ Apart (0, 0) 2 (1, 0) 2 :=
  ⟨.block rfl, .block rfl rfl, Or.inl (by decide)⟩

theorem C56_vec2_stepr {mem : Mem α} {edgeP destP : Ptr} {edge : V2 α} (x : α) (h_edge : Holds mem edgeP edge.list) (r_dest : Room mem destP 2) (s_edge_dest : Apart edgeP 2 destP 2) :
    C.glm_vec2_stepr.run mem [edgeP.val, .f x, destP.val] =
      some (none, writes mem [(destP, (Cglm.glm_vec2_stepr edge x).list.map .f)]) :=
  C55_vec2_stepr x h_edge r_dest (Or.inr s_edge_dest)
example (edge : V2 α) : let mem : Mem α := [⟨false, edge.list.map .f⟩, ⟨true, List.replicate 2 .undef⟩]
    Holds mem (0, 0) edge.list ∧ Room mem (1, 0) 2 ∧ Apart (0, 0) 2 (1, 0) 2 :=
  ⟨.block rfl, .block rfl rfl, Or.inl (by decide)⟩

theorem C56_vec2_complex_div {mem : Mem α} {aP bP destP : Ptr} {a : V2 α} {b : V2 α} (h_a : Holds mem aP a.list) (h_b : Holds mem bP b.list) (r_dest : Room mem destP 2) (s_a_dest : Apart aP 2 destP 2) (s_b_dest : Apart bP 2 destP 2) :
    C.glm_vec2_complex_div.run mem [aP.val, bP.val, destP.val] =
      some (none, writes mem [(destP, (Cglm.glm_vec2_complex_div a b).list.map .f)]) :=
  C55_vec2_complex_div h_a h_b r_dest (Or.inr s_a_dest) (Or.inr s_b_dest)
example (a : V2 α) (b : V2 α) : let mem : Mem α := [⟨false, a.list.map .f⟩, ⟨false, b.list.map .f⟩, ⟨true, List.replicate 2 .undef⟩]
    Holds mem (0, 0) a.list ∧ Holds mem (1, 0) b.list ∧ Room mem (2, 0) 2 ∧ Apart (0, 0) 2 (2, 0) 2 ∧ Apart (1, 0) 2 (2, 0) 2 :=
  ⟨.block rfl, .block rfl, .block rfl rfl, Or.inl (by decide), Or.inl (by decide)⟩

theorem C56_vec2_complex_conjugate {mem : Mem α} {aP destP : Ptr} {a : V2 α} (h_a : Holds mem aP a.list) (r_dest : Room mem destP 2) (s_a_dest : Apart aP 2 destP 2) :
    C.glm_vec2_complex_conjugate.run mem [aP.val, destP.val] =
      some (none, writes mem [(destP, (Cglm.glm_vec2_complex_conjugate a).list.map .f)]) :=
  C55_vec2_complex_conjugate h_a r_dest (Or.inr s_a_dest)
example (a : V2 α) : let mem : Mem α := [⟨false, a.list.map .f⟩, ⟨true, List.replicate 2 .undef⟩]
    Holds mem (0, 0) a.list ∧ Room mem (1, 0) 2 ∧ Apart (0, 0) 2 (1, 0) 2 :=
  ⟨.block rfl, .block rfl rfl, Or.inl (by decide)⟩

end Cglm

end C56Vec2Ext

section C56Vec3

/-!
# C56: memory safety and framing (include/cglm/vec3.h)

Called with initialised inputs and a writable destination that does not overlap them, the function is defined,
returns the value-level result and changes no memory but its destination.
-/

set_option linter.unusedVariables false
set_option linter.unusedSectionVars false

namespace Cglm
open CMem

variable {α : Type} [Add α] [Sub α] [Mul α] [Div α] [Neg α] [CFloat α]

theorem C56_vec3 {mem : Mem α} {v4P destP : Ptr} {v4 : V4 α} (h_v4 : Holds mem v4P v4.list) (r_dest : Room mem destP 3) (s_v4_dest : Apart v4P 4 destP 3) :
    C.glm_vec3.run mem [v4P.val, destP.val] =
      some (none, writes mem [(destP, (Cglm.glm_vec3 v4).list.map .f)]) := by
  exact transferL (((R.nil _).addW r_dest.has r_dest .nil).addR h_v4.has (.cons s_v4_dest .nil)) (.p rfl (.p rfl .nil)) (glm_vec3_run _) (DT.val_done _) rfl rfl
example (v4 : V4 α) : let mem : Mem α := [⟨false, v4.list.map .f⟩, ⟨true, List.replicate 3 .undef⟩]
    Holds mem (0, 0) v4.list ∧ Room mem (1, 0) 3 ∧ Apart (0, 0) 4 (1, 0) 3 :=
  ⟨.block rfl, .block rfl rfl, Or.inl (by decide)⟩

theorem C56_vec3_copy {mem : Mem α} {aP destP : Ptr} {a : V3 α} (h_a : Holds mem aP a.list) (r_dest : Room mem destP 3) (s_a_dest : Apart aP 3 destP 3) :
    C.glm_vec3_copy.run mem [aP.val, destP.val] =
      some (none, writes mem [(destP, (Cglm.glm_vec3_copy a).list.map .f)]) :=
  C55_vec3_copy h_a r_dest (Or.inr s_a_dest)
example (a : V3 α) : let mem : Mem α := [⟨false, a.list.map .f⟩, ⟨true, List.replicate 3 .undef⟩]
    Holds mem (0, 0) a.list ∧ Room mem (1, 0) 3 ∧ Apart (0, 0) 3 (1, 0) 3 :=
  ⟨.block rfl, .block rfl rfl, Or.inl (by decide)⟩

theorem C56_vec3_zero {mem : Mem α} {vP : Ptr} (r_v : Room mem vP 3) :
    C.glm_vec3_zero.run mem [vP.val] =
      some (none, writes mem [(vP, (Cglm.glm_vec3_zero).list.map .f)]) := by
  exact transferL ((R.nil _).addW r_v.has r_v .nil) (.p rfl .nil) (glm_vec3_zero_run) (DT.val_done _) rfl rfl
example : let mem : Mem α := [⟨true, List.replicate 3 .undef⟩]
    Room mem (0, 0) 3 :=
  .block rfl rfl

theorem C56_vec3_one {mem : Mem α} {vP : Ptr} (r_v : Room mem vP 3) :
    C.glm_vec3_one.run mem [vP.val] =
      some (none, writes mem [(vP, (Cglm.glm_vec3_one).list.map .f)]) := by
  exact transferL ((R.nil _).addW r_v.has r_v .nil) (.p rfl .nil) (glm_vec3_one_run) (DT.val_done _) rfl rfl
example : let mem : Mem α := [⟨true, List.replicate 3 .undef⟩]
    Room mem (0, 0) 3 :=
  .block rfl rfl

theorem C56_vec3_dot {mem : Mem α} {aP bP : Ptr} {a : V3 α} {b : V3 α} (h_a : Holds mem aP a.list) (h_b : Holds mem bP b.list) :
    C.glm_vec3_dot.run mem [aP.val, bP.val] =
      some (some (.f (Cglm.glm_vec3_dot a b)), mem) := by
  exact transferL (((R.nil _).addR h_b.has .nil).addR h_a.has (.skip .nil)) (.p rfl (.p rfl .nil)) (glm_vec3_dot_run _ _) (DT.val_done _) rfl rfl
example (a : V3 α) (b : V3 α) : let mem : Mem α := [⟨false, a.list.map .f⟩, ⟨false, b.list.map .f⟩]
    Holds mem (0, 0) a.list ∧ Holds mem (1, 0) b.list :=
  ⟨.block rfl, .block rfl⟩

theorem C56_vec3_norm2 {mem : Mem α} {vP : Ptr} {v : V3 α} (h_v : Holds mem vP v.list) :
    C.glm_vec3_norm2.run mem [vP.val] =
      some (some (.f (Cglm.glm_vec3_norm2 v)), mem) := by
  exact transferL ((R.nil _).addR h_v.has .nil) (.p rfl .nil) (glm_vec3_norm2_run _) (DT.val_done _) rfl rfl
example (v : V3 α) : let mem : Mem α := [⟨false, v.list.map .f⟩]
    Holds mem (0, 0) v.list :=
  .block rfl

theorem C56_vec3_norm {mem : Mem α} {vP : Ptr} {v : V3 α} (h_v : Holds mem vP v.list) :
    C.glm_vec3_norm.run mem [vP.val] =
      some (some (.f (Cglm.glm_vec3_norm v)), mem) := by
  exact transferL ((R.nil _).addR h_v.has .nil) (.p rfl .nil) (glm_vec3_norm_run _) (DT.val_done _) rfl rfl
example (v : V3 α) : let mem : Mem α := [⟨false, v.list.map .f⟩]
    Holds mem (0, 0) v.list :=
  .block rfl

theorem C56_vec3_norm_one {mem : Mem α} {vP : Ptr} {v : V3 α} (h_v : Holds mem vP v.list) :
    C.glm_vec3_norm_one.run mem [vP.val] =
      some (some (.f (Cglm.glm_vec3_norm_one v)), mem) := by
  exact transferL ((R.nil _).addR h_v.has .nil) (.p rfl .nil) (glm_vec3_norm_one_run _) (DT.val_done _) rfl rfl
example (v : V3 α) : let mem : Mem α := [⟨false, v.list.map .f⟩]
    Holds mem (0, 0) v.list :=
  .block rfl

theorem C56_vec3_norm_inf {mem : Mem α} {vP : Ptr} {v : V3 α} (h_v : Holds mem vP v.list) :
    C.glm_vec3_norm_inf.run mem [vP.val] =
      some (some (.f (Cglm.glm_vec3_norm_inf v)), mem) := by
  exact transferL ((R.nil _).addR h_v.has .nil) (.p rfl .nil) (glm_vec3_norm_inf_run _) (DT.val_done _) rfl rfl
example (v : V3 α) : let mem : Mem α := [⟨false, v.list.map .f⟩]
    Holds mem (0, 0) v.list :=
  .block rfl

theorem C56_vec3_add {mem : Mem α} {aP bP destP : Ptr} {a : V3 α} {b : V3 α} (h_a : Holds mem aP a.list) (h_b : Holds mem bP b.list) (r_dest : Room mem destP 3) (s_a_dest : Apart aP 3 destP 3) (s_b_dest : Apart bP 3 destP 3) :
    C.glm_vec3_add.run mem [aP.val, bP.val, destP.val] =
      some (none, writes mem [(destP, (Cglm.glm_vec3_add a b).list.map .f)]) :=
  C55_vec3_add h_a h_b r_dest (Or.inr s_a_dest) (Or.inr s_b_dest)
example (a : V3 α) (b : V3 α) : let mem : Mem α := [⟨false, a.list.map .f⟩, ⟨false, b.list.map .f⟩, ⟨true, List.replicate 3 .undef⟩]
    Holds mem (0, 0) a.list ∧ Holds mem (1, 0) b.list ∧ Room mem (2, 0) 3 ∧ Apart (0, 0) 3 (2, 0) 3 ∧ Apart (1, 0) 3 (2, 0) 3 :=
  ⟨.block rfl, .block rfl, .block rfl rfl, Or.inl (by decide), Or.inl (by decide)⟩

theorem C56_vec3_adds {mem : Mem α} {vP destP : Ptr} {v : V3 α} (s : α) (h_v : Holds mem vP v.list) (r_dest : Room mem destP 3) (s_v_dest : Apart vP 3 destP 3) :
    C.glm_vec3_adds.run mem [vP.val, .f s, destP.val] =
      some (none, writes mem [(destP, (Cglm.glm_vec3_adds v s).list.map .f)]) :=
  C55_vec3_adds s h_v r_dest (Or.inr s_v_dest)
example (v : V3 α) : let mem : Mem α := [⟨false, v.list.map .f⟩, ⟨true, List.replicate 3 .undef⟩]
    Holds mem (0, 0) v.list ∧ Room mem (1, 0) 3 ∧ Apart (0, 0) 3 (1, 0) 3 :=
  ⟨.block rfl, .block rfl rfl, Or.inl (by decide)⟩

theorem C56_vec3_sub {mem : Mem α} {aP bP destP : Ptr} {a : V3 α} {b : V3 α} (h_a : Holds mem aP a.list) (h_b : Holds mem bP b.list) (r_dest : Room mem destP 3) (s_a_dest : Apart aP 3 destP 3) (s_b_dest : Apart bP 3 destP 3) :
    C.glm_vec3_sub.run mem [aP.val, bP.val, destP.val] =
      some (none, writes mem [(destP, (Cglm.glm_vec3_sub a b).list.map .f)]) :=
  C55_vec3_sub h_a h_b r_dest (Or.inr s_a_dest) (Or.inr s_b_dest)
example (a : V3 α) (b : V3 α) : let mem : Mem α := [⟨false, a.list.map .f⟩, ⟨false, b.list.map .f⟩, ⟨true, List.replicate 3 .undef⟩]
    Holds mem (0, 0) a.list ∧ Holds mem (1, 0) b.list ∧ Room mem (2, 0) 3 ∧ Apart (0, 0) 3 (2, 0) 3 ∧ Apart (1, 0) 3 (2, 0) 3 :=
  ⟨.block rfl, .block rfl, .block rfl rfl, Or.inl (by decide), Or.inl (by decide)⟩

theorem C56_vec3_subs {mem : Mem α} {vP destP : Ptr} {v : V3 α} (s : α) (h_v : Holds mem vP v.list) (r_dest : Room mem destP 3) (s_v_dest : Apart vP 3 destP 3) :
    C.glm_vec3_subs.run mem [vP.val, .f s, destP.val] =
      some (none, writes mem [(destP, (Cglm.glm_vec3_subs v s).list.map .f)]) :=
  C55_vec3_subs s h_v r_dest (Or.inr s_v_dest)
example (v : V3 α) : let mem : Mem α := [⟨false, v.list.map .f⟩, ⟨true, List.replicate 3 .undef⟩]
    Holds mem (0, 0) v.list ∧ Room mem (1, 0) 3 ∧ Apart (0, 0) 3 (1, 0) 3 :=
  ⟨.block rfl, .block rfl rfl, Or.inl (by decide)⟩

theorem C56_vec3_mul {mem : Mem α} {aP bP destP : Ptr} {a : V3 α} {b : V3 α} (h_a : Holds mem aP a.list) (h_b : Holds mem bP b.list) (r_dest : Room mem destP 3) (s_a_dest : Apart aP 3 destP 3) (s_b_dest : Apart bP 3 destP 3) :
    C.glm_vec3_mul.run mem [aP.val, bP.val, destP.val] =
      some (none, writes mem [(destP, (Cglm.glm_vec3_mul a b).list.map .f)]) :=
  C55_vec3_mul h_a h_b r_dest (Or.inr s_a_dest) (Or.inr s_b_dest)
example (a : V3 α) (b : V3 α) : let mem : Mem α := [⟨false, a.list.map .f⟩, ⟨false, b.list.map .f⟩, ⟨true, List.replicate 3 .undef⟩]
    Holds mem (0, 0) a.list ∧ Holds mem (1, 0) b.list ∧ Room mem (2, 0) 3 ∧ Apart (0, 0) 3 (2, 0) 3 ∧ Apart (1, 0) 3 (2, 0) 3 :=
  ⟨.block rfl, .block rfl, .block rfl rfl, Or.inl (by decide), Or.inl (by decide)⟩

theorem C56_vec3_scale {mem : Mem α} {vP destP : Ptr} {v : V3 α} (s : α) (h_v : Holds mem vP v.list) (r_dest : Room mem destP 3) (s_v_dest : Apart vP 3 destP 3) :
    C.glm_vec3_scale.run mem [vP.val, .f s, destP.val] =
      some (none, writes mem [(destP, (Cglm.glm_vec3_scale v s).list.map .f)]) :=
  C55_vec3_scale s h_v r_dest (Or.inr s_v_dest)
example (v : V3 α) : let mem : Mem α := [⟨false, v.list.map .f⟩, ⟨true, List.replicate 3 .undef⟩]
    Holds mem (0, 0) v.list ∧ Room mem (1, 0) 3 ∧ Apart (0, 0) 3 (1, 0) 3 :=
  ⟨.block rfl, .block rfl rfl, Or.inl (by decide)⟩

theorem C56_vec3_scale_as {mem : Mem α} {vP destP : Ptr} {v : V3 α} (s : α) (h_v : Holds mem vP v.list) (r_dest : Room mem destP 3) (s_v_dest : Apart vP 3 destP 3) :
    C.glm_vec3_scale_as.run mem [vP.val, .f s, destP.val] =
      some (none, writes mem [(destP, (Cglm.glm_vec3_scale_as v s).list.map .f)]) :=
  C55_vec3_scale_as s h_v r_dest (Or.inr s_v_dest)
example (v : V3 α) : let mem : Mem α := [⟨false, v.list.map .f⟩, ⟨true, List.replicate 3 .undef⟩]
    Holds mem (0, 0) v.list ∧ Room mem (1, 0) 3 ∧ Apart (0, 0) 3 (1, 0) 3 :=
  ⟨.block rfl, .block rfl rfl, Or.inl (by decide)⟩

theorem C56_vec3_div {mem : Mem α} {aP bP destP : Ptr} {a : V3 α} {b : V3 α} (h_a : Holds mem aP a.list) (h_b : Holds mem bP b.list) (r_dest : Room mem destP 3) (s_a_dest : Apart aP 3 destP 3) (s_b_dest : Apart bP 3 destP 3) :
    C.glm_vec3_div.run mem [aP.val, bP.val, destP.val] =
      some (none, writes mem [(destP, (Cglm.glm_vec3_div a b).list.map .f)]) :=
  C55_vec3_div h_a h_b r_dest (Or.inr s_a_dest) (Or.inr s_b_dest)
example (a : V3 α) (b : V3 α) : let mem : Mem α := [⟨false, a.list.map .f⟩, ⟨false, b.list.map .f⟩, ⟨true, List.replicate 3 .undef⟩]
    Holds mem (0, 0) a.list ∧ Holds mem (1, 0) b.list ∧ Room mem (2, 0) 3 ∧ Apart (0, 0) 3 (2, 0) 3 ∧ Apart (1, 0) 3 (2, 0) 3 :=
  ⟨.block rfl, .block rfl, .block rfl rfl, Or.inl (by decide), Or.inl (by decide)⟩

theorem C56_vec3_divs {mem : Mem α} {vP destP : Ptr} {v : V3 α} (s : α) (h_v : Holds mem vP v.list) (r_dest : Room mem destP 3) (s_v_dest : Apart vP 3 destP 3) :
    C.glm_vec3_divs.run mem [vP.val, .f s, destP.val] =
      some (none, writes mem [(destP, (Cglm.glm_vec3_divs v s).list.map .f)]) :=
  C55_vec3_divs s h_v r_dest (Or.inr s_v_dest)
example (v : V3 α) : let mem : Mem α := [⟨false, v.list.map .f⟩, ⟨true, List.replicate 3 .undef⟩]
    Holds mem (0, 0) v.list ∧ Room mem (1, 0) 3 ∧ Apart (0, 0) 3 (1, 0) 3 :=
  ⟨.block rfl, .block rfl rfl, Or.inl (by decide)⟩

theorem C56_vec3_addadd {mem : Mem α} {aP bP destP : Ptr} {a : V3 α} {b : V3 α} {dest : V3 α} (h_a : Holds mem aP a.list) (h_b : Holds mem bP b.list) (h_dest : Holds mem destP dest.list) (r_dest : Room mem destP 3) (s_a_dest : Apart aP 3 destP 3) (s_b_dest : Apart bP 3 destP 3) :
    C.glm_vec3_addadd.run mem [aP.val, bP.val, destP.val] =
      some (none, writes mem [(destP, (Cglm.glm_vec3_addadd a b dest).list.map .f)]) :=
  C55_vec3_addadd h_a h_b h_dest r_dest (Or.inr s_a_dest) (Or.inr s_b_dest)
example (a : V3 α) (b : V3 α) (dest : V3 α) : let mem : Mem α := [⟨false, a.list.map .f⟩, ⟨false, b.list.map .f⟩, ⟨true, dest.list.map .f⟩]
    Holds mem (0, 0) a.list ∧ Holds mem (1, 0) b.list ∧ Holds mem (2, 0) dest.list ∧ Room mem (2, 0) 3 ∧ Apart (0, 0) 3 (2, 0) 3 ∧ Apart (1, 0) 3 (2, 0) 3 :=
  ⟨.block rfl, .block rfl, .block rfl, .block rfl rfl, Or.inl (by decide), Or.inl (by decide)⟩

theorem C56_vec3_subadd {mem : Mem α} {aP bP destP : Ptr} {a : V3 α} {b : V3 α} {dest : V3 α} (h_a : Holds mem aP a.list) (h_b : Holds mem bP b.list) (h_dest : Holds mem destP dest.list) (r_dest : Room mem destP 3) (s_a_dest : Apart aP 3 destP 3) (s_b_dest : Apart bP 3 destP 3) :
    C.glm_vec3_subadd.run mem [aP.val, bP.val, destP.val] =
      some (none, writes mem [(destP, (Cglm.glm_vec3_subadd a b dest).list.map .f)]) :=
  C55_vec3_subadd h_a h_b h_dest r_dest (Or.inr s_a_dest) (Or.inr s_b_dest)
example (a : V3 α) (b : V3 α) (dest : V3 α) : let mem : Mem α := [⟨false, a.list.map .f⟩, ⟨false, b.list.map .f⟩, ⟨true, dest.list.map .f⟩]
    Holds mem (0, 0) a.list ∧ Holds mem (1, 0) b.list ∧ Holds mem (2, 0) dest.list ∧ Room mem (2, 0) 3 ∧ Apart (0, 0) 3 (2, 0) 3 ∧ Apart (1, 0) 3 (2, 0) 3 :=
  ⟨.block rfl, .block rfl, .block rfl, .block rfl rfl, Or.inl (by decide), Or.inl (by decide)⟩

theorem C56_vec3_muladd {mem : Mem α} {aP bP destP : Ptr} {a : V3 α} {b : V3 α} {dest : V3 α} (h_a : Holds mem aP a.list) (h_b : Holds mem bP b.list) (h_dest : Holds mem destP dest.list) (r_dest : Room mem destP 3) (s_a_dest : Apart aP 3 destP 3) (s_b_dest : Apart bP 3 destP 3) :
    C.glm_vec3_muladd.run mem [aP.val, bP.val, destP.val] =
      some (none, writes mem [(destP, (Cglm.glm_vec3_muladd a b dest).list.map .f)]) :=
  C55_vec3_muladd h_a h_b h_dest r_dest (Or.inr s_a_dest) (Or.inr s_b_dest)
example (a : V3 α) (b : V3 α) (dest : V3 α) : let mem : Mem α := [⟨false, a.list.map .f⟩, ⟨false, b.list.map .f⟩, ⟨true, dest.list.map .f⟩]
    Holds mem (0, 0) a.list ∧ Holds mem (1, 0) b.list ∧ Holds mem (2, 0) dest.list ∧ Room mem (2, 0) 3 ∧ Apart (0, 0) 3 (2, 0) 3 ∧ Apart (1, 0) 3 (2, 0) 3 :=
  ⟨.block rfl, .block rfl, .block rfl, .block rfl rfl, Or.inl (by decide), Or.inl (by decide)⟩

theorem C56_vec3_muladds {mem : Mem α} {aP destP : Ptr} {a : V3 α} (s : α) {dest : V3 α} (h_a : Holds mem aP a.list) (h_dest : Holds mem destP dest.list) (r_dest : Room mem destP 3) (s_a_dest : Apart aP 3 destP 3) :
    C.glm_vec3_muladds.run mem [aP.val, .f s, destP.val] =
      some (none, writes mem [(destP, (Cglm.glm_vec3_muladds a s dest).list.map .f)]) :=
  C55_vec3_muladds s h_a h_dest r_dest (Or.inr s_a_dest)
example (a : V3 α) (dest : V3 α) : let mem : Mem α := [⟨false, a.list.map .f⟩, ⟨true, dest.list.map .f⟩]
    Holds mem (0, 0) a.list ∧ Holds mem (1, 0) dest.list ∧ Room mem (1, 0) 3 ∧ Apart (0, 0) 3 (1, 0) 3 :=
  ⟨.block rfl, .block rfl, .block rfl rfl, Or.inl (by decide)⟩

theorem C56_vec3_maxadd {mem : Mem α} {aP bP destP : Ptr} {a : V3 α} {b : V3 α} {dest : V3 α} (h_a : Holds mem aP a.list) (h_b : Holds mem bP b.list) (h_dest : Holds mem destP dest.list) (r_dest : Room mem destP 3) (s_a_dest : Apart aP 3 destP 3) (s_b_dest : Apart bP 3 destP 3) :
    C.glm_vec3_maxadd.run mem [aP.val, bP.val, destP.val] =
      some (none, writes mem [(destP, (Cglm.glm_vec3_maxadd a b dest).list.map .f)]) :=
  C55_vec3_maxadd h_a h_b h_dest r_dest (Or.inr s_a_dest) (Or.inr s_b_dest)
example (a : V3 α) (b : V3 α) (dest : V3 α) : let mem : Mem α := [⟨false, a.list.map .f⟩, ⟨false, b.list.map .f⟩, ⟨true, dest.list.map .f⟩]
    Holds mem (0, 0) a.list ∧ Holds mem (1, 0) b.list ∧ Holds mem (2, 0) dest.list ∧ Room mem (2, 0) 3 ∧ Apart (0, 0) 3 (2, 0) 3 ∧ Apart (1, 0) 3 (2, 0) 3 :=
  ⟨.block rfl, .block rfl, .block rfl, .block rfl rfl, Or.inl (by decide), Or.inl (by decide)⟩

theorem C56_vec3_minadd {mem : Mem α} {aP bP destP : Ptr} {a : V3 α} {b : V3 α} {dest : V3 α} (h_a : Holds mem aP a.list) (h_b : Holds mem bP b.list) (h_dest : Holds mem destP dest.list) (r_dest : Room mem destP 3) (s_a_dest : Apart aP 3 destP 3) (s_b_dest : Apart bP 3 destP 3) :
    C.glm_vec3_minadd.run mem [aP.val, bP.val, destP.val] =
      some (none, writes mem [(destP, (Cglm.glm_vec3_minadd a b dest).list.map .f)]) :=
  C55_vec3_minadd h_a h_b h_dest r_dest (Or.inr s_a_dest) (Or.inr s_b_dest)
example (a : V3 α) (b : V3 α) (dest : V3 α) : let mem : Mem α := [⟨false, a.list.map .f⟩, ⟨false, b.list.map .f⟩, ⟨true, dest.list.map .f⟩]
    Holds mem (0, 0) a.list ∧ Holds mem (1, 0) b.list ∧ Holds mem (2, 0) dest.list ∧ Room mem (2, 0) 3 ∧ Apart (0, 0) 3 (2, 0) 3 ∧ Apart (1, 0) 3 (2, 0) 3 :=
  ⟨.block rfl, .block rfl, .block rfl, .block rfl rfl, Or.inl (by decide), Or.inl (by decide)⟩

theorem C56_vec3_subsub {mem : Mem α} {aP bP destP : Ptr} {a : V3 α} {b : V3 α} {dest : V3 α} (h_a : Holds mem aP a.list) (h_b : Holds mem bP b.list) (h_dest : Holds mem destP dest.list) (r_dest : Room mem destP 3) (s_a_dest : Apart aP 3 destP 3) (s_b_dest : Apart bP 3 destP 3) :
    C.glm_vec3_subsub.run mem [aP.val, bP.val, destP.val] =
      some (none, writes mem [(destP, (Cglm.glm_vec3_subsub a b dest).list.map .f)]) :=
  C55_vec3_subsub h_a h_b h_dest r_dest (Or.inr s_a_dest) (Or.inr s_b_dest)
example (a : V3 α) (b : V3 α) (dest : V3 α) : let mem : Mem α := [⟨false, a.list.map .f⟩, ⟨false, b.list.map .f⟩, ⟨true, dest.list.map .f⟩]
    Holds mem (0, 0) a.list ∧ Holds mem (1, 0) b.list ∧ Holds mem (2, 0) dest.list ∧ Room mem (2, 0) 3 ∧ Apart (0, 0) 3 (2, 0) 3 ∧ Apart (1, 0) 3 (2, 0) 3 :=
  ⟨.block rfl, .block rfl, .block rfl, .block rfl rfl, Or.inl (by decide), Or.inl (by decide)⟩

theorem C56_vec3_addsub {mem : Mem α} {aP bP destP : Ptr} {a : V3 α} {b : V3 α} {dest : V3 α} (h_a : Holds mem aP a.list) (h_b : Holds mem bP b.list) (h_dest : Holds mem destP dest.list) (r_dest : Room mem destP 3) (s_a_dest : Apart aP 3 destP 3) (s_b_dest : Apart bP 3 destP 3) :
    C.glm_vec3_addsub.run mem [aP.val, bP.val, destP.val] =
      some (none, writes mem [(destP, (Cglm.glm_vec3_addsub a b dest).list.map .f)]) :=
  C55_vec3_addsub h_a h_b h_dest r_dest (Or.inr s_a_dest) (Or.inr s_b_dest)
example (a : V3 α) (b : V3 α) (dest : V3 α) : let mem : Mem α := [⟨false, a.list.map .f⟩, ⟨false, b.list.map .f⟩, ⟨true, dest.list.map .f⟩]
    Holds mem (0, 0) a.list ∧ Holds mem (1, 0) b.list ∧ Holds mem (2, 0) dest.list ∧ Room mem (2, 0) 3 ∧ Apart (0, 0) 3 (2, 0) 3 ∧ Apart (1, 0) 3 (2, 0) 3 :=
  ⟨.block rfl, .block rfl, .block rfl, .block rfl rfl, Or.inl (by decide), Or.inl (by decide)⟩

theorem C56_vec3_mulsub {mem : Mem α} {aP bP destP : Ptr} {a : V3 α} {b : V3 α} {dest : V3 α} (h_a : Holds mem aP a.list) (h_b : Holds mem bP b.list) (h_dest : Holds mem destP dest.list) (r_dest : Room mem destP 3) (s_a_dest : Apart aP 3 destP 3) (s_b_dest : Apart bP 3 destP 3) :
    C.glm_vec3_mulsub.run mem [aP.val, bP.val, destP.val] =
      some (none, writes mem [(destP, (Cglm.glm_vec3_mulsub a b dest).list.map .f)]) :=
  C55_vec3_mulsub h_a h_b h_dest r_dest (Or.inr s_a_dest) (Or.inr s_b_dest)
example (a : V3 α) (b : V3 α) (dest : V3 α) : let mem : Mem α := [⟨false, a.list.map .f⟩, ⟨false, b.list.map .f⟩, ⟨true, dest.list.map .f⟩]
    Holds mem (0, 0) a.list ∧ Holds mem (1, 0) b.list ∧ Holds mem (2, 0) dest.list ∧ Room mem (2, 0) 3 ∧ Apart (0, 0) 3 (2, 0) 3 ∧ Apart (1, 0) 3 (2, 0) 3 :=
  ⟨.block rfl, .block rfl, .block rfl, .block rfl rfl, Or.inl (by decide), Or.inl (by decide)⟩

theorem C56_vec3_mulsubs {mem : Mem α} {aP destP : Ptr} {a : V3 α} (s : α) {dest : V3 α} (h_a : Holds mem aP a.list) (h_dest : Holds mem destP dest.list) (r_dest : Room mem destP 3) (s_a_dest : Apart aP 3 destP 3) :
    C.glm_vec3_mulsubs.run mem [aP.val, .f s, destP.val] =
      some (none, writes mem [(destP, (Cglm.glm_vec3_mulsubs a s dest).list.map .f)]) :=
  C55_vec3_mulsubs s h_a h_dest r_dest (Or.inr s_a_dest)
example (a : V3 α) (dest : V3 α) : let mem : Mem α := [⟨false, a.list.map .f⟩, ⟨true, dest.list.map .f⟩]
    Holds mem (0, 0) a.list ∧ Holds mem (1, 0) dest.list ∧ Room mem (1, 0) 3 ∧ Apart (0, 0) 3 (1, 0) 3 :=
  ⟨.block rfl, .block rfl, .block rfl rfl, Or.inl (by decide)⟩

theorem C56_vec3_maxsub {mem : Mem α} {aP bP destP : Ptr} {a : V3 α} {b : V3 α} {dest : V3 α} (h_a : Holds mem aP a.list) (h_b : Holds mem bP b.list) (h_dest : Holds mem destP dest.list) (r_dest : Room mem destP 3) (s_a_dest : Apart aP 3 destP 3) (s_b_dest : Apart bP 3 destP 3) :
    C.glm_vec3_maxsub.run mem [aP.val, bP.val, destP.val] =
      some (none, writes mem [(destP, (Cglm.glm_vec3_maxsub a b dest).list.map .f)]) :=
  C55_vec3_maxsub h_a h_b h_dest r_dest (Or.inr s_a_dest) (Or.inr s_b_dest)
example (a : V3 α) (b : V3 α) (dest : V3 α) : let mem : Mem α := [⟨false, a.list.map .f⟩, ⟨false, b.list.map .f⟩, ⟨true, dest.list.map .f⟩]
    Holds mem (0, 0) a.list ∧ Holds mem (1, 0) b.list ∧ Holds mem (2, 0) dest.list ∧ Room mem (2, 0) 3 ∧ Apart (0, 0) 3 (2, 0) 3 ∧ Apart (1, 0) 3 (2, 0) 3 :=
  ⟨.block rfl, .block rfl, .block rfl, .block rfl rfl, Or.inl (by decide), Or.inl (by decide)⟩

theorem C56_vec3_minsub {mem : Mem α} {aP bP destP : Ptr} {a : V3 α} {b : V3 α} {dest : V3 α} (h_a : Holds mem aP a.list) (h_b : Holds mem bP b.list) (h_dest : Holds mem destP dest.list) (r_dest : Room mem destP 3) (s_a_dest : Apart aP 3 destP 3) (s_b_dest : Apart bP 3 destP 3) :
    C.glm_vec3_minsub.run mem [aP.val, bP.val, destP.val] =
      some (none, writes mem [(destP, (Cglm.glm_vec3_minsub a b dest).list.map .f)]) :=
  C55_vec3_minsub h_a h_b h_dest r_dest (Or.inr s_a_dest) (Or.inr s_b_dest)
example (a : V3 α) (b : V3 α) (dest : V3 α) : let mem : Mem α := [⟨false, a.list.map .f⟩, ⟨false, b.list.map .f⟩, ⟨true, dest.list.map .f⟩]
    Holds mem (0, 0) a.list ∧ Holds mem (1, 0) b.list ∧ Holds mem (2, 0) dest.list ∧ Room mem (2, 0) 3 ∧ Apart (0, 0) 3 (2, 0) 3 ∧ Apart (1, 0) 3 (2, 0) 3 :=
  ⟨.block rfl, .block rfl, .block rfl, .block rfl rfl, Or.inl (by decide), Or.inl (by decide)⟩

theorem C56_vec3_negate_to {mem : Mem α} {vP destP : Ptr} {v : V3 α} (h_v : Holds mem vP v.list) (r_dest : Room mem destP 3) (s_v_dest : Apart vP 3 destP 3) :
    C.glm_vec3_negate_to.run mem [vP.val, destP.val] =
      some (none, writes mem [(destP, (Cglm.glm_vec3_negate_to v).list.map .f)]) :=
  C55_vec3_negate_to h_v r_dest (Or.inr s_v_dest)
example (v : V3 α) : let mem : Mem α := [⟨false, v.list.map .f⟩, ⟨true, List.replicate 3 .undef⟩]
    Holds mem (0, 0) v.list ∧ Room mem (1, 0) 3 ∧ Apart (0, 0) 3 (1, 0) 3 :=
  ⟨.block rfl, .block rfl rfl, Or.inl (by decide)⟩

theorem C56_vec3_negate {mem : Mem α} {vP : Ptr} {v : V3 α} (h_v : Holds mem vP v.list) (r_v : Room mem vP 3) :
    C.glm_vec3_negate.run mem [vP.val] =
      some (none, writes mem [(vP, (Cglm.glm_vec3_negate v).list.map .f)]) := by
  exact transferL ((R.nil _).addW h_v.has r_v .nil) (.p rfl .nil) (glm_vec3_negate_run _) (DT.val_done _) rfl rfl
example (v : V3 α) : let mem : Mem α := [⟨true, v.list.map .f⟩]
    Holds mem (0, 0) v.list ∧ Room mem (0, 0) 3 :=
  ⟨.block rfl, .block rfl rfl⟩

theorem C56_vec3_normalize {mem : Mem α} {vP : Ptr} {v : V3 α} (h_v : Holds mem vP v.list) (r_v : Room mem vP 3) :
    C.glm_vec3_normalize.run mem [vP.val] =
      some (none, writes mem [(vP, (Cglm.glm_vec3_normalize v).list.map .f)]) := by
  exact transferL ((R.nil _).addW h_v.has r_v .nil) (.p rfl .nil) (glm_vec3_normalize_run _) (DT.val_map_eq (glm_vec3_normalize_dt_val _) rfl) rfl rfl
example (v : V3 α) : let mem : Mem α := [⟨true, v.list.map .f⟩]
    Holds mem (0, 0) v.list ∧ Room mem (0, 0) 3 :=
  ⟨.block rfl, .block rfl rfl⟩

theorem C56_vec3_normalize_to {mem : Mem α} {vP destP : Ptr} {v : V3 α} (h_v : Holds mem vP v.list) (r_dest : Room mem destP 3) (s_v_dest : Apart vP 3 destP 3) :
    C.glm_vec3_normalize_to.run mem [vP.val, destP.val] =
      some (none, writes mem [(destP, (Cglm.glm_vec3_normalize_to v).list.map .f)]) :=
  C55_vec3_normalize_to h_v r_dest (Or.inr s_v_dest)
example (v : V3 α) : let mem : Mem α := [⟨false, v.list.map .f⟩, ⟨true, List.replicate 3 .undef⟩]
    Holds mem (0, 0) v.list ∧ Room mem (1, 0) 3 ∧ Apart (0, 0) 3 (1, 0) 3 :=
  ⟨.block rfl, .block rfl rfl, Or.inl (by decide)⟩

theorem C56_vec3_cross {mem : Mem α} {aP bP destP : Ptr} {a : V3 α} {b : V3 α} (h_a : Holds mem aP a.list) (h_b : Holds mem bP b.list) (r_dest : Room mem destP 3) (s_a_dest : Apart aP 3 destP 3) (s_b_dest : Apart bP 3 destP 3) :
    C.glm_vec3_cross.run mem [aP.val, bP.val, destP.val] =
      some (none, writes mem [(destP, (Cglm.glm_vec3_cross a b).list.map .f)]) :=
  C55_vec3_cross h_a h_b r_dest (Or.inr s_a_dest) (Or.inr s_b_dest)
example (a : V3 α) (b : V3 α) : let mem : Mem α := [⟨false, a.list.map .f⟩, ⟨false, b.list.map .f⟩, ⟨true, List.replicate 3 .undef⟩]
    Holds mem (0, 0) a.list ∧ Holds mem (1, 0) b.list ∧ Room mem (2, 0) 3 ∧ Apart (0, 0) 3 (2, 0) 3 ∧ Apart (1, 0) 3 (2, 0) 3 :=
  ⟨.block rfl, .block rfl, .block rfl rfl, Or.inl (by decide), Or.inl (by decide)⟩

theorem C56_vec3_crossn {mem : Mem α} {aP bP destP : Ptr} {a : V3 α} {b : V3 α} (h_a : Holds mem aP a.list) (h_b : Holds mem bP b.list) (r_dest : Room mem destP 3) (s_a_dest : Apart aP 3 destP 3) (s_b_dest : Apart bP 3 destP 3) :
    C.glm_vec3_crossn.run mem [aP.val, bP.val, destP.val] =
      some (none, writes mem [(destP, (Cglm.glm_vec3_crossn a b).list.map .f)]) :=
  C55_vec3_crossn h_a h_b r_dest (Or.inr s_a_dest) (Or.inr s_b_dest)
example (a : V3 α) (b : V3 α) : let mem : Mem α := [⟨false, a.list.map .f⟩, ⟨false, b.list.map .f⟩, ⟨true, List.replicate 3 .undef⟩]
    Holds mem (0, 0) a.list ∧ Holds mem (1, 0) b.list ∧ Room mem (2, 0) 3 ∧ Apart (0, 0) 3 (2, 0) 3 ∧ Apart (1, 0) 3 (2, 0) 3 :=
  ⟨.block rfl, .block rfl, .block rfl rfl, Or.inl (by decide), Or.inl (by decide)⟩

theorem C56_vec3_angle {mem : Mem α} {aP bP : Ptr} {a : V3 α} {b : V3 α} (h_a : Holds mem aP a.list) (h_b : Holds mem bP b.list) :
    C.glm_vec3_angle.run mem [aP.val, bP.val] =
      some (some (.f (Cglm.glm_vec3_angle a b)), mem) := by
  exact transferL (((R.nil _).addR h_b.has .nil).addR h_a.has (.skip .nil)) (.p rfl (.p rfl .nil)) (glm_vec3_angle_run _ _) (DT.val_map_eq (glm_vec3_angle_dt_val _ _) rfl) rfl rfl
example (a : V3 α) (b : V3 α) : let mem : Mem α := [⟨false, a.list.map .f⟩, ⟨false, b.list.map .f⟩]
    Holds mem (0, 0) a.list ∧ Holds mem (1, 0) b.list :=
  ⟨.block rfl, .block rfl⟩

theorem C56_vec3_rotate {mem : Mem α} {vP axisP : Ptr} {v : V3 α} (angle : α) {axis : V3 α} (h_v : Holds mem vP v.list) (r_v : Room mem vP 3) (h_axis : Holds mem axisP axis.list) (s_axis_v : Apart axisP 3 vP 3) :
    C.glm_vec3_rotate.run mem [vP.val, .f angle, axisP.val] =
      some (none, writes mem [(vP, (Cglm.glm_vec3_rotate v angle axis).list.map .f)]) :=
  C55_vec3_rotate angle h_v r_v h_axis (Or.inr s_axis_v)
example (v : V3 α) (axis : V3 α) : let mem : Mem α := [⟨true, v.list.map .f⟩, ⟨false, axis.list.map .f⟩]
    Holds mem (0, 0) v.list ∧ Room mem (0, 0) 3 ∧ Holds mem (1, 0) axis.list ∧ Apart (1, 0) 3 (0, 0) 3 :=
  ⟨.block rfl, .block rfl rfl, .block rfl, Or.inl (by decide)⟩

theorem C56_vec3_rotate_m4 {mem : Mem α} {mP vP destP : Ptr} {m : M4 α} {v : V3 α} (h_m : Holds mem mP m.list) (h_v : Holds mem vP v.list) (r_dest : Room mem destP 3) (s_m_dest : Apart mP 16 destP 3) (s_v_dest : Apart vP 3 destP 3) :
    C.glm_vec3_rotate_m4.run mem [mP.val, vP.val, destP.val] =
      some (none, writes mem [(destP, (Cglm.glm_vec3_rotate_m4 m v).list.map .f)]) :=
  C55_vec3_rotate_m4 h_m h_v r_dest s_m_dest (Or.inr s_v_dest)
example (m : M4 α) (v : V3 α) : let mem : Mem α := [⟨false, m.list.map .f⟩, ⟨false, v.list.map .f⟩, ⟨true, List.replicate 3 .undef⟩]
    Holds mem (0, 0) m.list ∧ Holds mem (1, 0) v.list ∧ Room mem (2, 0) 3 ∧ Apart (0, 0) 16 (2, 0) 3 ∧ Apart (1, 0) 3 (2, 0) 3 :=
  ⟨.block rfl, .block rfl, .block rfl rfl, Or.inl (by decide), Or.inl (by decide)⟩

theorem C56_vec3_rotate_m3 {mem : Mem α} {mP vP destP : Ptr} {m : M3 α} {v : V3 α} (h_m : Holds mem mP m.list) (h_v : Holds mem vP v.list) (r_dest : Room mem destP 3) (s_m_dest : Apart mP 9 destP 3) (s_v_dest : Apart vP 3 destP 3) :
    C.glm_vec3_rotate_m3.run mem [mP.val, vP.val, destP.val] =
      some (none, writes mem [(destP, (Cglm.glm_vec3_rotate_m3 m v).list.map .f)]) :=
  C55_vec3_rotate_m3 h_m h_v r_dest s_m_dest (Or.inr s_v_dest)
example (m : M3 α) (v : V3 α) : let mem : Mem α := [⟨false, m.list.map .f⟩, ⟨false, v.list.map .f⟩, ⟨true, List.replicate 3 .undef⟩]
    Holds mem (0, 0) m.list ∧ Holds mem (1, 0) v.list ∧ Room mem (2, 0) 3 ∧ Apart (0, 0) 9 (2, 0) 3 ∧ Apart (1, 0) 3 (2, 0) 3 :=
  ⟨.block rfl, .block rfl, .block rfl rfl, Or.inl (by decide), Or.inl (by decide)⟩

theorem C56_vec3_proj {mem : Mem α} {aP bP destP : Ptr} {a : V3 α} {b : V3 α} (h_a : Holds mem aP a.list) (h_b : Holds mem bP b.list) (r_dest : Room mem destP 3) (s_a_dest : Apart aP 3 destP 3) (s_b_dest : Apart bP 3 destP 3) :
    C.glm_vec3_proj.run mem [aP.val, bP.val, destP.val] =
      some (none, writes mem [(destP, (Cglm.glm_vec3_proj a b).list.map .f)]) :=
  C55_vec3_proj h_a h_b r_dest (Or.inr s_a_dest) (Or.inr s_b_dest)
example (a : V3 α) (b : V3 α) : let mem : Mem α := [⟨false, a.list.map .f⟩, ⟨false, b.list.map .f⟩, ⟨true, List.replicate 3 .undef⟩]
    Holds mem (0, 0) a.list ∧ Holds mem (1, 0) b.list ∧ Room mem (2, 0) 3 ∧ Apart (0, 0) 3 (2, 0) 3 ∧ Apart (1, 0) 3 (2, 0) 3 :=
  ⟨.block rfl, .block rfl, .block rfl rfl, Or.inl (by decide), Or.inl (by decide)⟩

theorem C56_vec3_center {mem : Mem α} {aP bP destP : Ptr} {a : V3 α} {b : V3 α} (h_a : Holds mem aP a.list) (h_b : Holds mem bP b.list) (r_dest : Room mem destP 3) (s_a_dest : Apart aP 3 destP 3) (s_b_dest : Apart bP 3 destP 3) :
    C.glm_vec3_center.run mem [aP.val, bP.val, destP.val] =
      some (none, writes mem [(destP, (Cglm.glm_vec3_center a b).list.map .f)]) :=
  C55_vec3_center h_a h_b r_dest (Or.inr s_a_dest) (Or.inr s_b_dest)
example (a : V3 α) (b : V3 α) : let mem : Mem α := [⟨false, a.list.map .f⟩, ⟨false, b.list.map .f⟩, ⟨true, List.replicate 3 .undef⟩]
    Holds mem (0, 0) a.list ∧ Holds mem (1, 0) b.list ∧ Room mem (2, 0) 3 ∧ Apart (0, 0) 3 (2, 0) 3 ∧ Apart (1, 0) 3 (2, 0) 3 :=
  ⟨.block rfl, .block rfl, .block rfl rfl, Or.inl (by decide), Or.inl (by decide)⟩

theorem C56_vec3_distance2 {mem : Mem α} {aP bP : Ptr} {a : V3 α} {b : V3 α} (h_a : Holds mem aP a.list) (h_b : Holds mem bP b.list) :
    C.glm_vec3_distance2.run mem [aP.val, bP.val] =
      some (some (.f (Cglm.glm_vec3_distance2 a b)), mem) := by
  exact transferL (((R.nil _).addR h_b.has .nil).addR h_a.has (.skip .nil)) (.p rfl (.p rfl .nil)) (glm_vec3_distance2_run _ _) (DT.val_done _) rfl rfl
example (a : V3 α) (b : V3 α) : let mem : Mem α := [⟨false, a.list.map .f⟩, ⟨false, b.list.map .f⟩]
    Holds mem (0, 0) a.list ∧ Holds mem (1, 0) b.list :=
  ⟨.block rfl, .block rfl⟩

theorem C56_vec3_distance {mem : Mem α} {aP bP : Ptr} {a : V3 α} {b : V3 α} (h_a : Holds mem aP a.list) (h_b : Holds mem bP b.list) :
    C.glm_vec3_distance.run mem [aP.val, bP.val] =
      some (some (.f (Cglm.glm_vec3_distance a b)), mem) := by
  exact transferL (((R.nil _).addR h_b.has .nil).addR h_a.has (.skip .nil)) (.p rfl (.p rfl .nil)) (glm_vec3_distance_run _ _) (DT.val_done _) rfl rfl
example (a : V3 α) (b : V3 α) : let mem : Mem α := [⟨false, a.list.map .f⟩, ⟨false, b.list.map .f⟩]
    Holds mem (0, 0) a.list ∧ Holds mem (1, 0) b.list :=
  ⟨.block rfl, .block rfl⟩

theorem C56_vec3_maxv {mem : Mem α} {aP bP destP : Ptr} {a : V3 α} {b : V3 α} (h_a : Holds mem aP a.list) (h_b : Holds mem bP b.list) (r_dest : Room mem destP 3) (s_a_dest : Apart aP 3 destP 3) (s_b_dest : Apart bP 3 destP 3) :
    C.glm_vec3_maxv.run mem [aP.val, bP.val, destP.val] =
      some (none, writes mem [(destP, (Cglm.glm_vec3_maxv a b).list.map .f)]) :=
  C55_vec3_maxv h_a h_b r_dest (Or.inr s_a_dest) (Or.inr s_b_dest)
example (a : V3 α) (b : V3 α) : let mem : Mem α := [⟨false, a.list.map .f⟩, ⟨false, b.list.map .f⟩, ⟨true, List.replicate 3 .undef⟩]
    Holds mem (0, 0) a.list ∧ Holds mem (1, 0) b.list ∧ Room mem (2, 0) 3 ∧ Apart (0, 0) 3 (2, 0) 3 ∧ Apart (1, 0) 3 (2, 0) 3 :=
  ⟨.block rfl, .block rfl, .block rfl rfl, Or.inl (by decide), Or.inl (by decide)⟩

theorem C56_vec3_minv {mem : Mem α} {aP bP destP : Ptr} {a : V3 α} {b : V3 α} (h_a : Holds mem aP a.list) (h_b : Holds mem bP b.list) (r_dest : Room mem destP 3) (s_a_dest : Apart aP 3 destP 3) (s_b_dest : Apart bP 3 destP 3) :
    C.glm_vec3_minv.run mem [aP.val, bP.val, destP.val] =
      some (none, writes mem [(destP, (Cglm.glm_vec3_minv a b).list.map .f)]) :=
  C55_vec3_minv h_a h_b r_dest (Or.inr s_a_dest) (Or.inr s_b_dest)
example (a : V3 α) (b : V3 α) : let mem : Mem α := [⟨false, a.list.map .f⟩, ⟨false, b.list.map .f⟩, ⟨true, List.replicate 3 .undef⟩]
    Holds mem (0, 0) a.list ∧ Holds mem (1, 0) b.list ∧ Room mem (2, 0) 3 ∧ Apart (0, 0) 3 (2, 0) 3 ∧ Apart (1, 0) 3 (2, 0) 3 :=
  ⟨.block rfl, .block rfl, .block rfl rfl, Or.inl (by decide), Or.inl (by decide)⟩

theorem C56_vec3_ortho {mem : Mem α} {vP destP : Ptr} {v : V3 α} (h_v : Holds mem vP v.list) (r_dest : Room mem destP 3) (s_v_dest : Apart vP 3 destP 3) :
    C.glm_vec3_ortho.run mem [vP.val, destP.val] =
      some (none, writes mem [(destP, (Cglm.glm_vec3_ortho v).list.map .f)]) :=
  C55_vec3_ortho h_v r_dest (Or.inr s_v_dest)
example (v : V3 α) : let mem : Mem α := [⟨false, v.list.map .f⟩, ⟨true, List.replicate 3 .undef⟩]
    Holds mem (0, 0) v.list ∧ Room mem (1, 0) 3 ∧ Apart (0, 0) 3 (1, 0) 3 :=
  ⟨.block rfl, .block rfl rfl, Or.inl (by decide)⟩

theorem C56_vec3_clamp {mem : Mem α} {vP : Ptr} {v : V3 α} (minVal : α) (maxVal : α) (h_v : Holds mem vP v.list) (r_v : Room mem vP 3) :
    C.glm_vec3_clamp.run mem [vP.val, .f minVal, .f maxVal] =
      some (none, writes mem [(vP, (Cglm.glm_vec3_clamp v minVal maxVal).list.map .f)]) := by
  exact transferL ((R.nil _).addW h_v.has r_v .nil) (.p rfl (.f (.f .nil))) (glm_vec3_clamp_run _ _ _) (DT.val_done _) rfl rfl
example (v : V3 α) : let mem : Mem α := [⟨true, v.list.map .f⟩]
    Holds mem (0, 0) v.list ∧ Room mem (0, 0) 3 :=
  ⟨.block rfl, .block rfl rfl⟩

theorem C56_vec3_lerp {mem : Mem α} {frmP toP destP : Ptr} {frm : V3 α} {«to» : V3 α} (t : α) (h_frm : Holds mem frmP frm.list) (h_to : Holds mem toP «to».list) (r_dest : Room mem destP 3) (s_frm_dest : Apart frmP 3 destP 3) (s_to_dest : Apart toP 3 destP 3) :
    C.glm_vec3_lerp.run mem [frmP.val, toP.val, .f t, destP.val] =
      some (none, writes mem [(destP, (Cglm.glm_vec3_lerp frm «to» t).list.map .f)]) :=
  C55_vec3_lerp t h_frm h_to r_dest (Or.inr s_frm_dest) (Or.inr s_to_dest)
example (frm : V3 α) («to» : V3 α) : let mem : Mem α := [⟨false, frm.list.map .f⟩, ⟨false, «to».list.map .f⟩, ⟨true, List.replicate 3 .undef⟩]
    Holds mem (0, 0) frm.list ∧ Holds mem (1, 0) «to».list ∧ Room mem (2, 0) 3 ∧ Apart (0, 0) 3 (2, 0) 3 ∧ Apart (1, 0) 3 (2, 0) 3 :=
  ⟨.block rfl, .block rfl, .block rfl rfl, Or.inl (by decide), Or.inl (by decide)⟩

theorem C56_vec3_lerpc {mem : Mem α} {frmP toP destP : Ptr} {frm : V3 α} {«to» : V3 α} (t : α) (h_frm : Holds mem frmP frm.list) (h_to : Holds mem toP «to».list) (r_dest : Room mem destP 3) (s_frm_dest : Apart frmP 3 destP 3) (s_to_dest : Apart toP 3 destP 3) :
    C.glm_vec3_lerpc.run mem [frmP.val, toP.val, .f t, destP.val] =
      some (none, writes mem [(destP, (Cglm.glm_vec3_lerpc frm «to» t).list.map .f)]) :=
  C55_vec3_lerpc t h_frm h_to r_dest (Or.inr s_frm_dest) (Or.inr s_to_dest)
example (frm : V3 α) («to» : V3 α) : let mem : Mem α := [⟨false, frm.list.map .f⟩, ⟨false, «to».list.map .f⟩, ⟨true, List.replicate 3 .undef⟩]
    Holds mem (0, 0) frm.list ∧ Holds mem (1, 0) «to».list ∧ Room mem (2, 0) 3 ∧ Apart (0, 0) 3 (2, 0) 3 ∧ Apart (1, 0) 3 (2, 0) 3 :=
  ⟨.block rfl, .block rfl, .block rfl rfl, Or.inl (by decide), Or.inl (by decide)⟩

theorem C56_vec3_mix {mem : Mem α} {frmP toP destP : Ptr} {frm : V3 α} {«to» : V3 α} (t : α) (h_frm : Holds mem frmP frm.list) (h_to : Holds mem toP «to».list) (r_dest : Room mem destP 3) (s_frm_dest : Apart frmP 3 destP 3) (s_to_dest : Apart toP 3 destP 3) :
    C.glm_vec3_mix.run mem [frmP.val, toP.val, .f t, destP.val] =
      some (none, writes mem [(destP, (Cglm.glm_vec3_mix frm «to» t).list.map .f)]) :=
  C55_vec3_mix t h_frm h_to r_dest (Or.inr s_frm_dest) (Or.inr s_to_dest)
example (frm : V3 α) («to» : V3 α) : let mem : Mem α := [⟨false, frm.list.map .f⟩, ⟨false, «to».list.map .f⟩, ⟨true, List.replicate 3 .undef⟩]
    Holds mem (0, 0) frm.list ∧ Holds mem (1, 0) «to».list ∧ Room mem (2, 0) 3 ∧ Apart (0, 0) 3 (2, 0) 3 ∧ Apart (1, 0) 3 (2, 0) 3 :=
  ⟨.block rfl, .block rfl, .block rfl rfl, Or.inl (by decide), Or.inl (by decide)⟩

theorem C56_vec3_mixc {mem : Mem α} {frmP toP destP : Ptr} {frm : V3 α} {«to» : V3 α} (t : α) (h_frm : Holds mem frmP frm.list) (h_to : Holds mem toP «to».list) (r_dest : Room mem destP 3) (s_frm_dest : Apart frmP 3 destP 3) (s_to_dest : Apart toP 3 destP 3) :
    C.glm_vec3_mixc.run mem [frmP.val, toP.val, .f t, destP.val] =
      some (none, writes mem [(destP, (Cglm.glm_vec3_mixc frm «to» t).list.map .f)]) :=
  C55_vec3_mixc t h_frm h_to r_dest (Or.inr s_frm_dest) (Or.inr s_to_dest)
example (frm : V3 α) («to» : V3 α) : let mem : Mem α := [⟨false, frm.list.map .f⟩, ⟨false, «to».list.map .f⟩, ⟨true, List.replicate 3 .undef⟩]
    Holds mem (0, 0) frm.list ∧ Holds mem (1, 0) «to».list ∧ Room mem (2, 0) 3 ∧ Apart (0, 0) 3 (2, 0) 3 ∧ Apart (1, 0) 3 (2, 0) 3 :=
  ⟨.block rfl, .block rfl, .block rfl rfl, Or.inl (by decide), Or.inl (by decide)⟩

theorem C56_vec3_step {mem : Mem α} {edgeP xP destP : Ptr} {edge : V3 α} {x : V3 α} (h_edge : Holds mem edgeP edge.list) (h_x : Holds mem xP x.list) (r_dest : Room mem destP 3) (s_edge_dest : Apart edgeP 3 destP 3) (s_x_dest : Apart xP 3 destP 3) :
    C.glm_vec3_step.run mem [edgeP.val, xP.val, destP.val] =
      some (none, writes mem [(destP, (Cglm.glm_vec3_step edge x).list.map .f)]) :=
  C55_vec3_step h_edge h_x r_dest (Or.inr s_edge_dest) (Or.inr s_x_dest)
example (edge : V3 α) (x : V3 α) : let mem : Mem α := [⟨false, edge.list.map .f⟩, ⟨false, x.list.map .f⟩, ⟨true, List.replicate 3 .undef⟩]
    Holds mem (0, 0) edge.list ∧ Holds mem (1, 0) x.list ∧ Room mem (2, 0) 3 ∧ Apart (0, 0) 3 (2, 0) 3 ∧ Apart (1, 0) 3 (2, 0) 3 :=
  ⟨.block rfl, .block rfl, .block rfl rfl, Or.inl (by decide), Or.inl (by decide)⟩

theorem C56_vec3_smoothstep_uni {mem : Mem α} {xP destP : Ptr} (edge0 : α) (edge1 : α) {x : V3 α} (h_x : Holds mem xP x.list) (r_dest : Room mem destP 3) (s_x_dest : Apart xP 3 destP 3) :
    C.glm_vec3_smoothstep_uni.run mem [.f edge0, .f edge1, xP.val, destP.val] =
      some (none, writes mem [(destP, (Cglm.glm_vec3_smoothstep_uni edge0 edge1 x).list.map .f)]) :=
  C55_vec3_smoothstep_uni edge0 edge1 h_x r_dest (Or.inr s_x_dest)
example (x : V3 α) : let mem : Mem α := [⟨false, x.list.map .f⟩, ⟨true, List.replicate 3 .undef⟩]
    Holds mem (0, 0) x.list ∧ Room mem (1, 0) 3 ∧ Apart (0, 0) 3 (1, 0) 3 :=
  ⟨.block rfl, .block rfl rfl, Or.inl (by decide)⟩

theorem C56_vec3_smoothstep {mem : Mem α} {edge0P edge1P xP destP : Ptr} {edge0 : V3 α} {edge1 : V3 α} {x : V3 α} (h_edge0 : Holds mem edge0P edge0.list) (h_edge1 : Holds mem edge1P edge1.list) (h_x : Holds mem xP x.list) (r_dest : Room mem destP 3) (s_edge0_dest : Apart edge0P 3 destP 3) (s_edge1_dest : Apart edge1P 3 destP 3) (s_x_dest : Apart xP 3 destP 3) :
    C.glm_vec3_smoothstep.run mem [edge0P.val, edge1P.val, xP.val, destP.val] =
      some (none, writes mem [(destP, (Cglm.glm_vec3_smoothstep edge0 edge1 x).list.map .f)]) :=
  C55_vec3_smoothstep h_edge0 h_edge1 h_x r_dest (Or.inr s_edge0_dest) (Or.inr s_edge1_dest) (Or.inr s_x_dest)
example (edge0 : V3 α) (edge1 : V3 α) (x : V3 α) : let mem : Mem α := [⟨false, edge0.list.map .f⟩, ⟨false, edge1.list.map .f⟩, ⟨false, x.list.map .f⟩, ⟨true, List.replicate 3 .undef⟩]
    Holds mem (0, 0) edge0.list ∧ Holds mem (1, 0) edge1.list ∧ Holds mem (2, 0) x.list ∧ Room mem (3, 0) 3 ∧ Apart (0, 0) 3 (3, 0) 3 ∧ Apart (1, 0) 3 (3, 0) 3 ∧ Apart (2, 0) 3 (3, 0) 3 :=
  ⟨.block rfl, .block rfl, .block rfl, .block rfl rfl, Or.inl (by decide), Or.inl (by decide), Or.inl (by decide)⟩

theorem C56_vec3_smoothinterp {mem : Mem α} {frmP toP destP : Ptr} {frm : V3 α} {«to» : V3 α} (t : α) (h_frm : Holds mem frmP frm.list) (h_to : Holds mem toP «to».list) (r_dest : Room mem destP 3) (s_frm_dest : Apart frmP 3 destP 3) (s_to_dest : Apart toP 3 destP 3) :
    C.glm_vec3_smoothinterp.run mem [frmP.val, toP.val, .f t, destP.val] =
      some (none, writes mem [(destP, (Cglm.glm_vec3_smoothinterp frm «to» t).list.map .f)]) :=
  C55_vec3_smoothinterp t h_frm h_to r_dest (Or.inr s_frm_dest) (Or.inr s_to_dest)
example (frm : V3 α) («to» : V3 α) : let mem : Mem α := [⟨false, frm.list.map .f⟩, ⟨false, «to».list.map .f⟩, ⟨true, List.replicate 3 .undef⟩]
    Holds mem (0, 0) frm.list ∧ Holds mem (1, 0) «to».list ∧ Room mem (2, 0) 3 ∧ Apart (0, 0) 3 (2, 0) 3 ∧ Apart (1, 0) 3 (2, 0) 3 :=
  ⟨.block rfl, .block rfl, .block rfl rfl, Or.inl (by decide), Or.inl (by decide)⟩

theorem C56_vec3_smoothinterpc {mem : Mem α} {frmP toP destP : Ptr} {frm : V3 α} {«to» : V3 α} (t : α) (h_frm : Holds mem frmP frm.list) (h_to : Holds mem toP «to».list) (r_dest : Room mem destP 3) (s_frm_dest : Apart frmP 3 destP 3) (s_to_dest : Apart toP 3 destP 3) :
    C.glm_vec3_smoothinterpc.run mem [frmP.val, toP.val, .f t, destP.val] =
      some (none, writes mem [(destP, (Cglm.glm_vec3_smoothinterpc frm «to» t).list.map .f)]) :=
  C55_vec3_smoothinterpc t h_frm h_to r_dest (Or.inr s_frm_dest) (Or.inr s_to_dest)
example (frm : V3 α) («to» : V3 α) : let mem : Mem α := [⟨false, frm.list.map .f⟩, ⟨false, «to».list.map .f⟩, ⟨true, List.replicate 3 .undef⟩]
    Holds mem (0, 0) frm.list ∧ Holds mem (1, 0) «to».list ∧ Room mem (2, 0) 3 ∧ Apart (0, 0) 3 (2, 0) 3 ∧ Apart (1, 0) 3 (2, 0) 3 :=
  ⟨.block rfl, .block rfl, .block rfl rfl, Or.inl (by decide), Or.inl (by decide)⟩

theorem C56_cross {mem : Mem α} {aP bP dP : Ptr} {a : V3 α} {b : V3 α} (h_a : Holds mem aP a.list) (h_b : Holds mem bP b.list) (r_d : Room mem dP 3) (s_a_d : Apart aP 3 dP 3) (s_b_d : Apart bP 3 dP 3) :
    C.glm_cross.run mem [aP.val, bP.val, dP.val] =
      some (none, writes mem [(dP, (Cglm.glm_cross a b).list.map .f)]) :=
  C55_cross h_a h_b r_d (Or.inr s_a_d) (Or.inr s_b_d)
example (a : V3 α) (b : V3 α) : let mem : Mem α := [⟨false, a.list.map .f⟩, ⟨false, b.list.map .f⟩, ⟨true, List.replicate 3 .undef⟩]
    Holds mem (0, 0) a.list ∧ Holds mem (1, 0) b.list ∧ Room mem (2, 0) 3 ∧ Apart (0, 0) 3 (2, 0) 3 ∧ Apart (1, 0) 3 (2, 0) 3 :=
  ⟨.block rfl, .block rfl, .block rfl rfl, Or.inl (by decide), Or.inl (by decide)⟩

theorem C56_dot {mem : Mem α} {aP bP : Ptr} {a : V3 α} {b : V3 α} (h_a : Holds mem aP a.list) (h_b : Holds mem bP b.list) :
    C.glm_dot.run mem [aP.val, bP.val] =
      some (some (.f (Cglm.glm_dot a b)), mem) := by
  exact transferL (((R.nil _).addR h_b.has .nil).addR h_a.has (.skip .nil)) (.p rfl (.p rfl .nil)) (glm_dot_run _ _) (DT.val_done _) rfl rfl
example (a : V3 α) (b : V3 α) : let mem : Mem α := [⟨false, a.list.map .f⟩, ⟨false, b.list.map .f⟩]
    Holds mem (0, 0) a.list ∧ Holds mem (1, 0) b.list :=
  ⟨.block rfl, .block rfl⟩

theorem C56_normalize {mem : Mem α} {vP : Ptr} {v : V3 α} (h_v : Holds mem vP v.list) (r_v : Room mem vP 3) :
    C.glm_normalize.run mem [vP.val] =
      some (none, writes mem [(vP, (Cglm.glm_normalize v).list.map .f)]) := by
  exact transferL ((R.nil _).addW h_v.has r_v .nil) (.p rfl .nil) (glm_normalize_run _) (DT.val_map_eq (glm_normalize_dt_val _) rfl) rfl rfl
example (v : V3 α) : let mem : Mem α := [⟨true, v.list.map .f⟩]
    Holds mem (0, 0) v.list ∧ Room mem (0, 0) 3 :=
  ⟨.block rfl, .block rfl rfl⟩

theorem C56_normalize_to {mem : Mem α} {vP destP : Ptr} {v : V3 α} (h_v : Holds mem vP v.list) (r_dest : Room mem destP 3) (s_v_dest : Apart vP 3 destP 3) :
    C.glm_normalize_to.run mem [vP.val, destP.val] =
      some (none, writes mem [(destP, (Cglm.glm_normalize_to v).list.map .f)]) :=
  C55_normalize_to h_v r_dest (Or.inr s_v_dest)
example (v : V3 α) : let mem : Mem α := [⟨false, v.list.map .f⟩, ⟨true, List.replicate 3 .undef⟩]
    Holds mem (0, 0) v.list ∧ Room mem (1, 0) 3 ∧ Apart (0, 0) 3 (1, 0) 3 :=
  ⟨.block rfl, .block rfl rfl, Or.inl (by decide)⟩

theorem C56_vec3_make {mem : Mem α} {srcP destP : Ptr} {src : V3 α} (h_src : Holds mem srcP src.list) (r_dest : Room mem destP 3) (s_src_dest : Apart srcP 3 destP 3) :
    C.glm_vec3_make.run mem [srcP.val, destP.val] =
      some (none, writes mem [(destP, (Cglm.glm_vec3_make src).list.map .f)]) :=
  C55_vec3_make h_src r_dest (Or.inr s_src_dest)
example (src : V3 α) : let mem : Mem α := [⟨false, src.list.map .f⟩, ⟨true, List.replicate 3 .undef⟩]
    Holds mem (0, 0) src.list ∧ Room mem (1, 0) 3 ∧ Apart (0, 0) 3 (1, 0) 3 :=
  ⟨.block rfl, .block rfl rfl, Or.inl (by decide)⟩

theorem C56_vec3_faceforward {mem : Mem α} {nP vP nrefP destP : Ptr} {n : V3 α} {v : V3 α} {nref : V3 α} (h_n : Holds mem nP n.list) (h_v : Holds mem vP v.list) (h_nref : Holds mem nrefP nref.list) (r_dest : Room mem destP 3) (s_n_dest : Apart nP 3 destP 3) (s_v_dest : Apart vP 3 destP 3) (s_nref_dest : Apart nrefP 3 destP 3) :
    C.glm_vec3_faceforward.run mem [nP.val, vP.val, nrefP.val, destP.val] =
      some (none, writes mem [(destP, (Cglm.glm_vec3_faceforward n v nref).list.map .f)]) :=
  C55_vec3_faceforward h_n h_v h_nref r_dest (Or.inr s_n_dest) (Or.inr s_v_dest) (Or.inr s_nref_dest)
example (n : V3 α) (v : V3 α) (nref : V3 α) : let mem : Mem α := [⟨false, n.list.map .f⟩, ⟨false, v.list.map .f⟩, ⟨false, nref.list.map .f⟩, ⟨true, List.replicate 3 .undef⟩]
    Holds mem (0, 0) n.list ∧ Holds mem (1, 0) v.list ∧ Holds mem (2, 0) nref.list ∧ Room mem (3, 0) 3 ∧ Apart (0, 0) 3 (3, 0) 3 ∧ Apart (1, 0) 3 (3, 0) 3 ∧ Apart (2, 0) 3 (3, 0) 3 :=
  ⟨.block rfl, .block rfl, .block rfl, .block rfl rfl, Or.inl (by decide), Or.inl (by decide), Or.inl (by decide)⟩

theorem C56_vec3_reflect {mem : Mem α} {vP nP destP : Ptr} {v : V3 α} {n : V3 α} (h_v : Holds mem vP v.list) (h_n : Holds mem nP n.list) (r_dest : Room mem destP 3) (s_v_dest : Apart vP 3 destP 3) (s_n_dest : Apart nP 3 destP 3) :
    C.glm_vec3_reflect.run mem [vP.val, nP.val, destP.val] =
      some (none, writes mem [(destP, (Cglm.glm_vec3_reflect v n).list.map .f)]) :=
  C55_vec3_reflect h_v h_n r_dest (Or.inr s_v_dest) (Or.inr s_n_dest)
example (v : V3 α) (n : V3 α) : let mem : Mem α := [⟨false, v.list.map .f⟩, ⟨false, n.list.map .f⟩, ⟨true, List.replicate 3 .undef⟩]
    Holds mem (0, 0) v.list ∧ Holds mem (1, 0) n.list ∧ Room mem (2, 0) 3 ∧ Apart (0, 0) 3 (2, 0) 3 ∧ Apart (1, 0) 3 (2, 0) 3 :=
  ⟨.block rfl, .block rfl, .block rfl rfl, Or.inl (by decide), Or.inl (by decide)⟩

theorem C56_vec3_refract {mem : Mem α} {vP nP destP : Ptr} {v : V3 α} {n : V3 α} (eta : α) (h_v : Holds mem vP v.list) (h_n : Holds mem nP n.list) (r_dest : Room mem destP 3) (s_v_dest : Apart vP 3 destP 3) (s_n_dest : Apart nP 3 destP 3) :
    C.glm_vec3_refract.run mem [vP.val, nP.val, .f eta, destP.val] =
      some (some (.b (Cglm.glm_vec3_refract v n eta).1), writes mem [(destP, (Cglm.glm_vec3_refract v n eta).2.list.map .f)]) :=
  C55_vec3_refract eta h_v h_n r_dest (Or.inr s_v_dest) s_n_dest
example (v : V3 α) (n : V3 α) : let mem : Mem α := [⟨false, v.list.map .f⟩, ⟨false, n.list.map .f⟩, ⟨true, List.replicate 3 .undef⟩]
    Holds mem (0, 0) v.list ∧ Holds mem (1, 0) n.list ∧ Room mem (2, 0) 3 ∧ Apart (0, 0) 3 (2, 0) 3 ∧ Apart (1, 0) 3 (2, 0) 3 :=
  ⟨.block rfl, .block rfl, .block rfl rfl, Or.inl (by decide), Or.inl (by decide)⟩

end Cglm

end C56Vec3

section C56Vec3Ext

/-!
# C56: memory safety and framing (include/cglm/vec3-ext.h)

Called with initialised inputs and a writable destination that does not overlap them, the function is defined,
returns the value-level result and changes no memory but its destination.
-/

set_option linter.unusedVariables false
set_option linter.unusedSectionVars false

namespace Cglm
open CMem

variable {α : Type} [Add α] [Sub α] [Mul α] [Div α] [Neg α] [CFloat α]

theorem C56_vec3_broadcast {mem : Mem α} {dP : Ptr} (val : α) (r_d : Room mem dP 3) :
    C.glm_vec3_broadcast.run mem [.f val, dP.val] =
      some (none, writes mem [(dP, (Cglm.glm_vec3_broadcast val).list.map .f)]) := by
  exact transferL ((R.nil _).addW r_d.has r_d .nil) (.f (.p rfl .nil)) (glm_vec3_broadcast_run _) (DT.val_done _) rfl rfl
example : let mem : Mem α := [⟨true, List.replicate 3 .undef⟩]
    Room mem (0, 0) 3 :=
  .block rfl rfl

theorem C56_vec3_fill {mem : Mem α} {vP : Ptr} (val : α) (r_v : Room mem vP 3) :
    C.glm_vec3_fill.run mem [vP.val, .f val] =
      some (none, writes mem [(vP, (Cglm.glm_vec3_fill val).list.map .f)]) := by
  exact transferL ((R.nil _).addW r_v.has r_v .nil) (.p rfl (.f .nil)) (glm_vec3_fill_run _) (DT.val_done _) rfl rfl
example : let mem : Mem α := [⟨true, List.replicate 3 .undef⟩]
    Room mem (0, 0) 3 :=
  .block rfl rfl

theorem C56_vec3_eq {mem : Mem α} {vP : Ptr} {v : V3 α} (val : α) (h_v : Holds mem vP v.list) :
    C.glm_vec3_eq.run mem [vP.val, .f val] =
      some (some (.b (Cglm.glm_vec3_eq v val)), mem) := by
  exact transferL ((R.nil _).addR h_v.has .nil) (.p rfl (.f .nil)) (glm_vec3_eq_run _ _) (DT.val_done _) rfl rfl
example (v : V3 α) : let mem : Mem α := [⟨false, v.list.map .f⟩]
    Holds mem (0, 0) v.list :=
  .block rfl

theorem C56_vec3_eq_eps {mem : Mem α} {vP : Ptr} {v : V3 α} (val : α) (h_v : Holds mem vP v.list) :
    C.glm_vec3_eq_eps.run mem [vP.val, .f val] =
      some (some (.b (Cglm.glm_vec3_eq_eps v val)), mem) := by
  exact transferL ((R.nil _).addR h_v.has .nil) (.p rfl (.f .nil)) (glm_vec3_eq_eps_run _ _) (DT.val_done _) rfl rfl
example (v : V3 α) : let mem : Mem α := [⟨false, v.list.map .f⟩]
    Holds mem (0, 0) v.list :=
  .block rfl

theorem C56_vec3_eq_all {mem : Mem α} {vP : Ptr} {v : V3 α} (h_v : Holds mem vP v.list) :
    C.glm_vec3_eq_all.run mem [vP.val] =
      some (some (.b (Cglm.glm_vec3_eq_all v)), mem) := by
  exact transferL ((R.nil _).addR h_v.has .nil) (.p rfl .nil) (glm_vec3_eq_all_run _) (DT.val_done _) rfl rfl
example (v : V3 α) : let mem : Mem α := [⟨false, v.list.map .f⟩]
    Holds mem (0, 0) v.list :=
  .block rfl

theorem C56_vec3_eqv {mem : Mem α} {aP bP : Ptr} {a : V3 α} {b : V3 α} (h_a : Holds mem aP a.list) (h_b : Holds mem bP b.list) :
    C.glm_vec3_eqv.run mem [aP.val, bP.val] =
      some (some (.b (Cglm.glm_vec3_eqv a b)), mem) := by
  exact transferL (((R.nil _).addR h_b.has .nil).addR h_a.has (.skip .nil)) (.p rfl (.p rfl .nil)) (glm_vec3_eqv_run _ _) (DT.val_done _) rfl rfl
example (a : V3 α) (b : V3 α) : let mem : Mem α := [⟨false, a.list.map .f⟩, ⟨false, b.list.map .f⟩]
    Holds mem (0, 0) a.list ∧ Holds mem (1, 0) b.list :=
  ⟨.block rfl, .block rfl⟩

theorem C56_vec3_eqv_eps {mem : Mem α} {aP bP : Ptr} {a : V3 α} {b : V3 α} (h_a : Holds mem aP a.list) (h_b : Holds mem bP b.list) :
    C.glm_vec3_eqv_eps.run mem [aP.val, bP.val] =
      some (some (.b (Cglm.glm_vec3_eqv_eps a b)), mem) := by
  exact transferL (((R.nil _).addR h_b.has .nil).addR h_a.has (.skip .nil)) (.p rfl (.p rfl .nil)) (glm_vec3_eqv_eps_run _ _) (DT.val_done _) rfl rfl
example (a : V3 α) (b : V3 α) : let mem : Mem α := [⟨false, a.list.map .f⟩, ⟨false, b.list.map .f⟩]
    Holds mem (0, 0) a.list ∧ Holds mem (1, 0) b.list :=
  ⟨.block rfl, .block rfl⟩

theorem C56_vec3_max {mem : Mem α} {vP : Ptr} {v : V3 α} (h_v : Holds mem vP v.list) :
    C.glm_vec3_max.run mem [vP.val] =
      some (some (.f (Cglm.glm_vec3_max v)), mem) := by
  exact transferL ((R.nil _).addR h_v.has .nil) (.p rfl .nil) (glm_vec3_max_run _) (DT.val_map_eq (glm_vec3_max_dt_val _) rfl) rfl rfl
example (v : V3 α) : let mem : Mem α := [⟨false, v.list.map .f⟩]
    Holds mem (0, 0) v.list :=
  .block rfl

theorem C56_vec3_min {mem : Mem α} {vP : Ptr} {v : V3 α} (h_v : Holds mem vP v.list) :
    C.glm_vec3_min.run mem [vP.val] =
      some (some (.f (Cglm.glm_vec3_min v)), mem) := by
  exact transferL ((R.nil _).addR h_v.has .nil) (.p rfl .nil) (glm_vec3_min_run _) (DT.val_map_eq (glm_vec3_min_dt_val _) rfl) rfl rfl
example (v : V3 α) : let mem : Mem α := [⟨false, v.list.map .f⟩]
    Holds mem (0, 0) v.list :=
  .block rfl

theorem C56_vec3_isnan {mem : Mem α} {vP : Ptr} {v : V3 α} (h_v : Holds mem vP v.list) :
    C.glm_vec3_isnan.run mem [vP.val] =
      some (some (.b (Cglm.glm_vec3_isnan v)), mem) := by
  exact transferL ((R.nil _).addR h_v.has .nil) (.p rfl .nil) (glm_vec3_isnan_run _) (DT.val_done _) rfl rfl
example (v : V3 α) : let mem : Mem α := [⟨false, v.list.map .f⟩]
    Holds mem (0, 0) v.list :=
  .block rfl

theorem C56_vec3_isinf {mem : Mem α} {vP : Ptr} {v : V3 α} (h_v : Holds mem vP v.list) :
    C.glm_vec3_isinf.run mem [vP.val] =
      some (some (.b (Cglm.glm_vec3_isinf v)), mem) := by
  exact transferL ((R.nil _).addR h_v.has .nil) (.p rfl .nil) (glm_vec3_isinf_run _) (DT.val_done _) rfl rfl
example (v : V3 α) : let mem : Mem α := [⟨false, v.list.map .f⟩]
    Holds mem (0, 0) v.list :=
  .block rfl

theorem C56_vec3_isvalid {mem : Mem α} {vP : Ptr} {v : V3 α} (h_v : Holds mem vP v.list) :
    C.glm_vec3_isvalid.run mem [vP.val] =
      some (some (.b (Cglm.glm_vec3_isvalid v)), mem) := by
  exact transferL ((R.nil _).addR h_v.has .nil) (.p rfl .nil) (glm_vec3_isvalid_run _) (DT.val_done _) rfl rfl
example (v : V3 α) : let mem : Mem α := [⟨false, v.list.map .f⟩]
    Holds mem (0, 0) v.list :=
  .block rfl

theorem C56_vec3_sign {mem : Mem α} {vP destP : Ptr} {v : V3 α} (h_v : Holds mem vP v.list) (r_dest : Room mem destP 3) (s_v_dest : Apart vP 3 destP 3) :
    C.glm_vec3_sign.run mem [vP.val, destP.val] =
      some (none, writes mem [(destP, (Cglm.glm_vec3_sign v).list.map .f)]) :=
  C55_vec3_sign h_v r_dest (Or.inr s_v_dest)
example (v : V3 α) : let mem : Mem α := [⟨false, v.list.map .f⟩, ⟨true, List.replicate 3 .undef⟩]
    Holds mem (0, 0) v.list ∧ Room mem (1, 0) 3 ∧ Apart (0, 0) 3 (1, 0) 3 :=
  ⟨.block rfl, .block rfl rfl, Or.inl (by decide)⟩

theorem C56_vec3_abs {mem : Mem α} {vP destP : Ptr} {v : V3 α} (h_v : Holds mem vP v.list) (r_dest : Room mem destP 3) (s_v_dest : Apart vP 3 destP 3) :
    C.glm_vec3_abs.run mem [vP.val, destP.val] =
      some (none, writes mem [(destP, (Cglm.glm_vec3_abs v).list.map .f)]) :=
  C55_vec3_abs h_v r_dest (Or.inr s_v_dest)
example (v : V3 α) : let mem : Mem α := [⟨false, v.list.map .f⟩, ⟨true, List.replicate 3 .undef⟩]
    Holds mem (0, 0) v.list ∧ Room mem (1, 0) 3 ∧ Apart (0, 0) 3 (1, 0) 3 :=
  ⟨.block rfl, .block rfl rfl, Or.inl (by decide)⟩

theorem C56_vec3_fract {mem : Mem α} {vP destP : Ptr} {v : V3 α} (h_v : Holds mem vP v.list) (r_dest : Room mem destP 3) (s_v_dest : Apart vP 3 destP 3) :
    C.glm_vec3_fract.run mem [vP.val, destP.val] =
      some (none, writes mem [(destP, (Cglm.glm_vec3_fract v).list.map .f)]) :=
  C55_vec3_fract h_v r_dest (Or.inr s_v_dest)
example (v : V3 α) : let mem : Mem α := [⟨false, v.list.map .f⟩, ⟨true, List.replicate 3 .undef⟩]
    Holds mem (0, 0) v.list ∧ Room mem (1, 0) 3 ∧ Apart (0, 0) 3 (1, 0) 3 :=
  ⟨.block rfl, .block rfl rfl, Or.inl (by decide)⟩

theorem C56_vec3_floor {mem : Mem α} {vP destP : Ptr} {v : V3 α} (h_v : Holds mem vP v.list) (r_dest : Room mem destP 3) (s_v_dest : Apart vP 3 destP 3) :
    C.glm_vec3_floor.run mem [vP.val, destP.val] =
      some (none, writes mem [(destP, (Cglm.glm_vec3_floor v).list.map .f)]) :=
  C55_vec3_floor h_v r_dest (Or.inr s_v_dest)
example (v : V3 α) : let mem : Mem α := [⟨false, v.list.map .f⟩, ⟨true, List.replicate 3 .undef⟩]
    Holds mem (0, 0) v.list ∧ Room mem (1, 0) 3 ∧ Apart (0, 0) 3 (1, 0) 3 :=
  ⟨.block rfl, .block rfl rfl, Or.inl (by decide)⟩

theorem C56_vec3_mods {mem : Mem α} {vP destP : Ptr} {v : V3 α} (s : α) (h_v : Holds mem vP v.list) (r_dest : Room mem destP 3) (s_v_dest : Apart vP 3 destP 3) :
    C.glm_vec3_mods.run mem [vP.val, .f s, destP.val] =
      some (none, writes mem [(destP, (Cglm.glm_vec3_mods v s).list.map .f)]) :=
  C55_vec3_mods s h_v r_dest (Or.inr s_v_dest)
example (v : V3 α) : let mem : Mem α := [⟨false, v.list.map .f⟩, ⟨true, List.replicate 3 .undef⟩]
    Holds mem (0, 0) v.list ∧ Room mem (1, 0) 3 ∧ Apart (0, 0) 3 (1, 0) 3 :=
  ⟨.block rfl, .block rfl rfl, Or.inl (by decide)⟩

theorem C56_vec3_steps {mem : Mem α} {xP destP : Ptr} (edge : α) {x : V3 α} (h_x : Holds mem xP x.list) (r_dest : Room mem destP 3) (s_x_dest : Apart xP 3 destP 3) :
    C.glm_vec3_steps.run mem [.f edge, xP.val, destP.val] =
      some (none, writes mem [(destP, (Cglm.glm_vec3_steps edge x).list.map .f)]) :=
  C55_vec3_steps edge h_x r_dest (Or.inr s_x_dest)
example (x : V3 α) : let mem : Mem α := [⟨false, x.list.map .f⟩, ⟨true, List.replicate 3 .undef⟩]
    Holds mem (0, 0) x.list ∧ Room mem (1, 0) 3 ∧ Apart (0, 0) 3 (1, 0) 3 :=
  ⟨.block rfl, .block rfl rfl, Or.inl (by decide)⟩

theorem C56_vec3_stepr {mem : Mem α} {edgeP destP : Ptr} {edge : V3 α} (x : α) (h_edge : Holds mem edgeP edge.list) (r_dest : Room mem destP 3) (s_edge_dest : Apart edgeP 3 destP 3) :
    C.glm_vec3_stepr.run mem [edgeP.val, .f x, destP.val] =
      some (none, writes mem [(destP, (Cglm.glm_vec3_stepr edge x).list.map .f)]) :=
  C55_vec3_stepr x h_edge r_dest (Or.inr s_edge_dest)
example (edge : V3 α) : let mem : Mem α := [⟨false, edge.list.map .f⟩, ⟨true, List.replicate 3 .undef⟩]
    Holds mem (0, 0) edge.list ∧ Room mem (1, 0) 3 ∧ Apart (0, 0) 3 (1, 0) 3 :=
  ⟨.block rfl, .block rfl rfl, Or.inl (by decide)⟩

theorem C56_vec3_hadd {mem : Mem α} {vP : Ptr} {v : V3 α} (h_v : Holds mem vP v.list) :
    C.glm_vec3_hadd.run mem [vP.val] =
      some (some (.f (Cglm.glm_vec3_hadd v)), mem) := by
  exact transferL ((R.nil _).addR h_v.has .nil) (.p rfl .nil) (glm_vec3_hadd_run _) (DT.val_done _) rfl rfl
example (v : V3 α) : let mem : Mem α := [⟨false, v.list.map .f⟩]
    Holds mem (0, 0) v.list :=
  .block rfl

theorem C56_vec3_sqrt {mem : Mem α} {vP destP : Ptr} {v : V3 α} (h_v : Holds mem vP v.list) (r_dest : Room mem destP 3) (s_v_dest : Apart vP 3 destP 3) :
    C.glm_vec3_sqrt.run mem [vP.val, destP.val] =
      some (none, writes mem [(destP, (Cglm.glm_vec3_sqrt v).list.map .f)]) :=
  C55_vec3_sqrt h_v r_dest (Or.inr s_v_dest)
example (v : V3 α) : let mem : Mem α := [⟨false, v.list.map .f⟩, ⟨true, List.replicate 3 .undef⟩]
    Holds mem (0, 0) v.list ∧ Room mem (1, 0) 3 ∧ Apart (0, 0) 3 (1, 0) 3 :=
  ⟨.block rfl, .block rfl rfl, Or.inl (by decide)⟩

end Cglm

end C56Vec3Ext

section C56Vec4

/-!
# C56: memory safety and framing (include/cglm/vec4.h)

Called with initialised inputs and a writable destination that does not overlap them, the function is defined,
returns the value-level result and changes no memory but its destination.
-/

set_option linter.unusedVariables false
set_option linter.unusedSectionVars false

namespace Cglm
open CMem

variable {α : Type} [Add α] [Sub α] [Mul α] [Div α] [Neg α] [CFloat α]

theorem C56_vec4 {mem : Mem α} {v3P destP : Ptr} {v3 : V3 α} (last : α) (h_v3 : Holds mem v3P v3.list) (r_dest : Room mem destP 4) (s_v3_dest : Apart v3P 3 destP 4) :
    C.glm_vec4.run mem [v3P.val, .f last, destP.val] =
      some (none, writes mem [(destP, (Cglm.glm_vec4 v3 last).list.map .f)]) := by
  exact transferL (((R.nil _).addW r_dest.has r_dest .nil).addR h_v3.has (.cons s_v3_dest .nil)) (.p rfl (.f (.p rfl .nil))) (glm_vec4_run _ _) (DT.val_done _) rfl rfl
example (v3 : V3 α) : let mem : Mem α := [⟨false, v3.list.map .f⟩, ⟨true, List.replicate 4 .undef⟩]
    Holds mem (0, 0) v3.list ∧ Room mem (1, 0) 4 ∧ Apart (0, 0) 3 (1, 0) 4 :=
  ⟨.block rfl, .block rfl rfl, Or.inl (by decide)⟩

theorem C56_vec4_copy3 {mem : Mem α} {aP destP : Ptr} {a : V4 α} (h_a : Holds mem aP a.list) (r_dest : Room mem destP 3) (s_a_dest : Apart aP 4 destP 3) :
    C.glm_vec4_copy3.run mem [aP.val, destP.val] =
      some (none, writes mem [(destP, (Cglm.glm_vec4_copy3 a).list.map .f)]) := by
  exact transferL (((R.nil _).addW r_dest.has r_dest .nil).addR h_a.has (.cons s_a_dest .nil)) (.p rfl (.p rfl .nil)) (glm_vec4_copy3_run _) (DT.val_done _) rfl rfl
example (a : V4 α) : let mem : Mem α := [⟨false, a.list.map .f⟩, ⟨true, List.replicate 3 .undef⟩]
    Holds mem (0, 0) a.list ∧ Room mem (1, 0) 3 ∧ Apart (0, 0) 4 (1, 0) 3 :=
  ⟨.block rfl, .block rfl rfl, Or.inl (by decide)⟩

theorem C56_vec4_copy {mem : Mem α} {vP destP : Ptr} {v : V4 α} (h_v : Holds mem vP v.list) (r_dest : Room mem destP 4) (s_v_dest : Apart vP 4 destP 4) :
    C.glm_vec4_copy.run mem [vP.val, destP.val] =
      some (none, writes mem [(destP, (Cglm.glm_vec4_copy v).list.map .f)]) :=
  C55_vec4_copy h_v r_dest (Or.inr s_v_dest)
example (v : V4 α) : let mem : Mem α := [⟨false, v.list.map .f⟩, ⟨true, List.replicate 4 .undef⟩]
    Holds mem (0, 0) v.list ∧ Room mem (1, 0) 4 ∧ Apart (0, 0) 4 (1, 0) 4 :=
  ⟨.block rfl, .block rfl rfl, Or.inl (by decide)⟩

theorem C56_vec4_ucopy {mem : Mem α} {vP destP : Ptr} {v : V4 α} (h_v : Holds mem vP v.list) (r_dest : Room mem destP 4) (s_v_dest : Apart vP 4 destP 4) :
    C.glm_vec4_ucopy.run mem [vP.val, destP.val] =
      some (none, writes mem [(destP, (Cglm.glm_vec4_ucopy v).list.map .f)]) :=
  C55_vec4_ucopy h_v r_dest (Or.inr s_v_dest)
example (v : V4 α) : let mem : Mem α := [⟨false, v.list.map .f⟩, ⟨true, List.replicate 4 .undef⟩]
    Holds mem (0, 0) v.list ∧ Room mem (1, 0) 4 ∧ Apart (0, 0) 4 (1, 0) 4 :=
  ⟨.block rfl, .block rfl rfl, Or.inl (by decide)⟩

theorem C56_vec4_zero {mem : Mem α} {vP : Ptr} (r_v : Room mem vP 4) :
    C.glm_vec4_zero.run mem [vP.val] =
      some (none, writes mem [(vP, (Cglm.glm_vec4_zero).list.map .f)]) := by
  exact transferL ((R.nil _).addW r_v.has r_v .nil) (.p rfl .nil) (glm_vec4_zero_run) (DT.val_done _) rfl rfl
example : let mem : Mem α := [⟨true, List.replicate 4 .undef⟩]
    Room mem (0, 0) 4 :=
  .block rfl rfl

theorem C56_vec4_one {mem : Mem α} {vP : Ptr} (r_v : Room mem vP 4) :
    C.glm_vec4_one.run mem [vP.val] =
      some (none, writes mem [(vP, (Cglm.glm_vec4_one).list.map .f)]) := by
  exact transferL ((R.nil _).addW r_v.has r_v .nil) (.p rfl .nil) (glm_vec4_one_run) (DT.val_done _) rfl rfl
example : let mem : Mem α := [⟨true, List.replicate 4 .undef⟩]
    Room mem (0, 0) 4 :=
  .block rfl rfl

theorem C56_vec4_dot {mem : Mem α} {aP bP : Ptr} {a : V4 α} {b : V4 α} (h_a : Holds mem aP a.list) (h_b : Holds mem bP b.list) :
    C.glm_vec4_dot.run mem [aP.val, bP.val] =
      some (some (.f (Cglm.glm_vec4_dot a b)), mem) := by
  exact transferL (((R.nil _).addR h_b.has .nil).addR h_a.has (.skip .nil)) (.p rfl (.p rfl .nil)) (glm_vec4_dot_run _ _) (DT.val_done _) rfl rfl
example (a : V4 α) (b : V4 α) : let mem : Mem α := [⟨false, a.list.map .f⟩, ⟨false, b.list.map .f⟩]
    Holds mem (0, 0) a.list ∧ Holds mem (1, 0) b.list :=
  ⟨.block rfl, .block rfl⟩

theorem C56_vec4_norm2 {mem : Mem α} {vP : Ptr} {v : V4 α} (h_v : Holds mem vP v.list) :
    C.glm_vec4_norm2.run mem [vP.val] =
      some (some (.f (Cglm.glm_vec4_norm2 v)), mem) := by
  exact transferL ((R.nil _).addR h_v.has .nil) (.p rfl .nil) (glm_vec4_norm2_run _) (DT.val_done _) rfl rfl
example (v : V4 α) : let mem : Mem α := [⟨false, v.list.map .f⟩]
    Holds mem (0, 0) v.list :=
  .block rfl

theorem C56_vec4_norm {mem : Mem α} {vP : Ptr} {v : V4 α} (h_v : Holds mem vP v.list) :
    C.glm_vec4_norm.run mem [vP.val] =
      some (some (.f (Cglm.glm_vec4_norm v)), mem) := by
  exact transferL ((R.nil _).addR h_v.has .nil) (.p rfl .nil) (glm_vec4_norm_run _) (DT.val_done _) rfl rfl
example (v : V4 α) : let mem : Mem α := [⟨false, v.list.map .f⟩]
    Holds mem (0, 0) v.list :=
  .block rfl

theorem C56_vec4_norm_one {mem : Mem α} {vP : Ptr} {v : V4 α} (h_v : Holds mem vP v.list) :
    C.glm_vec4_norm_one.run mem [vP.val] =
      some (some (.f (Cglm.glm_vec4_norm_one v)), mem) := by
  exact transferL ((R.nil _).addR h_v.has .nil) (.p rfl .nil) (glm_vec4_norm_one_run _) (DT.val_done _) rfl rfl
example (v : V4 α) : let mem : Mem α := [⟨false, v.list.map .f⟩]
    Holds mem (0, 0) v.list :=
  .block rfl

theorem C56_vec4_norm_inf {mem : Mem α} {vP : Ptr} {v : V4 α} (h_v : Holds mem vP v.list) :
    C.glm_vec4_norm_inf.run mem [vP.val] =
      some (some (.f (Cglm.glm_vec4_norm_inf v)), mem) := by
  exact transferL ((R.nil _).addR h_v.has .nil) (.p rfl .nil) (glm_vec4_norm_inf_run _) (DT.val_done _) rfl rfl
example (v : V4 α) : let mem : Mem α := [⟨false, v.list.map .f⟩]
    Holds mem (0, 0) v.list :=
  .block rfl

theorem C56_vec4_add {mem : Mem α} {aP bP destP : Ptr} {a : V4 α} {b : V4 α} (h_a : Holds mem aP a.list) (h_b : Holds mem bP b.list) (r_dest : Room mem destP 4) (s_a_dest : Apart aP 4 destP 4) (s_b_dest : Apart bP 4 destP 4) :
    C.glm_vec4_add.run mem [aP.val, bP.val, destP.val] =
      some (none, writes mem [(destP, (Cglm.glm_vec4_add a b).list.map .f)]) :=
  C55_vec4_add h_a h_b r_dest (Or.inr s_a_dest) (Or.inr s_b_dest)
example (a : V4 α) (b : V4 α) : let mem : Mem α := [⟨false, a.list.map .f⟩, ⟨false, b.list.map .f⟩, ⟨true, List.replicate 4 .undef⟩]
    Holds mem (0, 0) a.list ∧ Holds mem (1, 0) b.list ∧ Room mem (2, 0) 4 ∧ Apart (0, 0) 4 (2, 0) 4 ∧ Apart (1, 0) 4 (2, 0) 4 :=
  ⟨.block rfl, .block rfl, .block rfl rfl, Or.inl (by decide), Or.inl (by decide)⟩

theorem C56_vec4_adds {mem : Mem α} {vP destP : Ptr} {v : V4 α} (s : α) (h_v : Holds mem vP v.list) (r_dest : Room mem destP 4) (s_v_dest : Apart vP 4 destP 4) :
    C.glm_vec4_adds.run mem [vP.val, .f s, destP.val] =
      some (none, writes mem [(destP, (Cglm.glm_vec4_adds v s).list.map .f)]) :=
  C55_vec4_adds s h_v r_dest (Or.inr s_v_dest)
example (v : V4 α) : let mem : Mem α := [⟨false, v.list.map .f⟩, ⟨true, List.replicate 4 .undef⟩]
    Holds mem (0, 0) v.list ∧ Room mem (1, 0) 4 ∧ Apart (0, 0) 4 (1, 0) 4 :=
  ⟨.block rfl, .block rfl rfl, Or.inl (by decide)⟩

theorem C56_vec4_sub {mem : Mem α} {aP bP destP : Ptr} {a : V4 α} {b : V4 α} (h_a : Holds mem aP a.list) (h_b : Holds mem bP b.list) (r_dest : Room mem destP 4) (s_a_dest : Apart aP 4 destP 4) (s_b_dest : Apart bP 4 destP 4) :
    C.glm_vec4_sub.run mem [aP.val, bP.val, destP.val] =
      some (none, writes mem [(destP, (Cglm.glm_vec4_sub a b).list.map .f)]) :=
  C55_vec4_sub h_a h_b r_dest (Or.inr s_a_dest) (Or.inr s_b_dest)
example (a : V4 α) (b : V4 α) : let mem : Mem α := [⟨false, a.list.map .f⟩, ⟨false, b.list.map .f⟩, ⟨true, List.replicate 4 .undef⟩]
    Holds mem (0, 0) a.list ∧ Holds mem (1, 0) b.list ∧ Room mem (2, 0) 4 ∧ Apart (0, 0) 4 (2, 0) 4 ∧ Apart (1, 0) 4 (2, 0) 4 :=
  ⟨.block rfl, .block rfl, .block rfl rfl, Or.inl (by decide), Or.inl (by decide)⟩

theorem C56_vec4_subs {mem : Mem α} {vP destP : Ptr} {v : V4 α} (s : α) (h_v : Holds mem vP v.list) (r_dest : Room mem destP 4) (s_v_dest : Apart vP 4 destP 4) :
    C.glm_vec4_subs.run mem [vP.val, .f s, destP.val] =
      some (none, writes mem [(destP, (Cglm.glm_vec4_subs v s).list.map .f)]) :=
  C55_vec4_subs s h_v r_dest (Or.inr s_v_dest)
example (v : V4 α) : let mem : Mem α := [⟨false, v.list.map .f⟩, ⟨true, List.replicate 4 .undef⟩]
    Holds mem (0, 0) v.list ∧ Room mem (1, 0) 4 ∧ Apart (0, 0) 4 (1, 0) 4 :=
  ⟨.block rfl, .block rfl rfl, Or.inl (by decide)⟩

theorem C56_vec4_mul {mem : Mem α} {aP bP destP : Ptr} {a : V4 α} {b : V4 α} (h_a : Holds mem aP a.list) (h_b : Holds mem bP b.list) (r_dest : Room mem destP 4) (s_a_dest : Apart aP 4 destP 4) (s_b_dest : Apart bP 4 destP 4) :
    C.glm_vec4_mul.run mem [aP.val, bP.val, destP.val] =
      some (none, writes mem [(destP, (Cglm.glm_vec4_mul a b).list.map .f)]) :=
  C55_vec4_mul h_a h_b r_dest (Or.inr s_a_dest) (Or.inr s_b_dest)
example (a : V4 α) (b : V4 α) : let mem : Mem α := [⟨false, a.list.map .f⟩, ⟨false, b.list.map .f⟩, ⟨true, List.replicate 4 .undef⟩]
    Holds mem (0, 0) a.list ∧ Holds mem (1, 0) b.list ∧ Room mem (2, 0) 4 ∧ Apart (0, 0) 4 (2, 0) 4 ∧ Apart (1, 0) 4 (2, 0) 4 :=
  ⟨.block rfl, .block rfl, .block rfl rfl, Or.inl (by decide), Or.inl (by decide)⟩

theorem C56_vec4_scale {mem : Mem α} {vP destP : Ptr} {v : V4 α} (s : α) (h_v : Holds mem vP v.list) (r_dest : Room mem destP 4) (s_v_dest : Apart vP 4 destP 4) :
    C.glm_vec4_scale.run mem [vP.val, .f s, destP.val] =
      some (none, writes mem [(destP, (Cglm.glm_vec4_scale v s).list.map .f)]) :=
  C55_vec4_scale s h_v r_dest (Or.inr s_v_dest)
example (v : V4 α) : let mem : Mem α := [⟨false, v.list.map .f⟩, ⟨true, List.replicate 4 .undef⟩]
    Holds mem (0, 0) v.list ∧ Room mem (1, 0) 4 ∧ Apart (0, 0) 4 (1, 0) 4 :=
  ⟨.block rfl, .block rfl rfl, Or.inl (by decide)⟩

theorem C56_vec4_scale_as {mem : Mem α} {vP destP : Ptr} {v : V4 α} (s : α) (h_v : Holds mem vP v.list) (r_dest : Room mem destP 4) (s_v_dest : Apart vP 4 destP 4) :
    C.glm_vec4_scale_as.run mem [vP.val, .f s, destP.val] =
      some (none, writes mem [(destP, (Cglm.glm_vec4_scale_as v s).list.map .f)]) :=
  C55_vec4_scale_as s h_v r_dest (Or.inr s_v_dest)
example (v : V4 α) : let mem : Mem α := [⟨false, v.list.map .f⟩, ⟨true, List.replicate 4 .undef⟩]
    Holds mem (0, 0) v.list ∧ Room mem (1, 0) 4 ∧ Apart (0, 0) 4 (1, 0) 4 :=
  ⟨.block rfl, .block rfl rfl, Or.inl (by decide)⟩

theorem C56_vec4_div {mem : Mem α} {aP bP destP : Ptr} {a : V4 α} {b : V4 α} (h_a : Holds mem aP a.list) (h_b : Holds mem bP b.list) (r_dest : Room mem destP 4) (s_a_dest : Apart aP 4 destP 4) (s_b_dest : Apart bP 4 destP 4) :
    C.glm_vec4_div.run mem [aP.val, bP.val, destP.val] =
      some (none, writes mem [(destP, (Cglm.glm_vec4_div a b).list.map .f)]) :=
  C55_vec4_div h_a h_b r_dest (Or.inr s_a_dest) (Or.inr s_b_dest)
example (a : V4 α) (b : V4 α) : let mem : Mem α := [⟨false, a.list.map .f⟩, ⟨false, b.list.map .f⟩, ⟨true, List.replicate 4 .undef⟩]
    Holds mem (0, 0) a.list ∧ Holds mem (1, 0) b.list ∧ Room mem (2, 0) 4 ∧ Apart (0, 0) 4 (2, 0) 4 ∧ Apart (1, 0) 4 (2, 0) 4 :=
  ⟨.block rfl, .block rfl, .block rfl rfl, Or.inl (by decide), Or.inl (by decide)⟩

theorem C56_vec4_divs {mem : Mem α} {vP destP : Ptr} {v : V4 α} (s : α) (h_v : Holds mem vP v.list) (r_dest : Room mem destP 4) (s_v_dest : Apart vP 4 destP 4) :
    C.glm_vec4_divs.run mem [vP.val, .f s, destP.val] =
      some (none, writes mem [(destP, (Cglm.glm_vec4_divs v s).list.map .f)]) :=
  C55_vec4_divs s h_v r_dest (Or.inr s_v_dest)
example (v : V4 α) : let mem : Mem α := [⟨false, v.list.map .f⟩, ⟨true, List.replicate 4 .undef⟩]
    Holds mem (0, 0) v.list ∧ Room mem (1, 0) 4 ∧ Apart (0, 0) 4 (1, 0) 4 :=
  ⟨.block rfl, .block rfl rfl, Or.inl (by decide)⟩

theorem C56_vec4_addadd {mem : Mem α} {aP bP destP : Ptr} {a : V4 α} {b : V4 α} {dest : V4 α} (h_a : Holds mem aP a.list) (h_b : Holds mem bP b.list) (h_dest : Holds mem destP dest.list) (r_dest : Room mem destP 4) (s_a_dest : Apart aP 4 destP 4) (s_b_dest : Apart bP 4 destP 4) :
    C.glm_vec4_addadd.run mem [aP.val, bP.val, destP.val] =
      some (none, writes mem [(destP, (Cglm.glm_vec4_addadd a b dest).list.map .f)]) :=
  C55_vec4_addadd h_a h_b h_dest r_dest (Or.inr s_a_dest) (Or.inr s_b_dest)
example (a : V4 α) (b : V4 α) (dest : V4 α) : let mem : Mem α := [⟨false, a.list.map .f⟩, ⟨false, b.list.map .f⟩, ⟨true, dest.list.map .f⟩]
    Holds mem (0, 0) a.list ∧ Holds mem (1, 0) b.list ∧ Holds mem (2, 0) dest.list ∧ Room mem (2, 0) 4 ∧ Apart (0, 0) 4 (2, 0) 4 ∧ Apart (1, 0) 4 (2, 0) 4 :=
  ⟨.block rfl, .block rfl, .block rfl, .block rfl rfl, Or.inl (by decide), Or.inl (by decide)⟩

theorem C56_vec4_subadd {mem : Mem α} {aP bP destP : Ptr} {a : V4 α} {b : V4 α} {dest : V4 α} (h_a : Holds mem aP a.list) (h_b : Holds mem bP b.list) (h_dest : Holds mem destP dest.list) (r_dest : Room mem destP 4) (s_a_dest : Apart aP 4 destP 4) (s_b_dest : Apart bP 4 destP 4) :
    C.glm_vec4_subadd.run mem [aP.val, bP.val, destP.val] =
      some (none, writes mem [(destP, (Cglm.glm_vec4_subadd a b dest).list.map .f)]) :=
  C55_vec4_subadd h_a h_b h_dest r_dest (Or.inr s_a_dest) (Or.inr s_b_dest)
example (a : V4 α) (b : V4 α) (dest : V4 α) : let mem : Mem α := [⟨false, a.list.map .f⟩, ⟨false, b.list.map .f⟩, ⟨true, dest.list.map .f⟩]
    Holds mem (0, 0) a.list ∧ Holds mem (1, 0) b.list ∧ Holds mem (2, 0) dest.list ∧ Room mem (2, 0) 4 ∧ Apart (0, 0) 4 (2, 0) 4 ∧ Apart (1, 0) 4 (2, 0) 4 :=
  ⟨.block rfl, .block rfl, .block rfl, .block rfl rfl, Or.inl (by decide), Or.inl (by decide)⟩

theorem C56_vec4_muladd {mem : Mem α} {aP bP destP : Ptr} {a : V4 α} {b : V4 α} {dest : V4 α} (h_a : Holds mem aP a.list) (h_b : Holds mem bP b.list) (h_dest : Holds mem destP dest.list) (r_dest : Room mem destP 4) (s_a_dest : Apart aP 4 destP 4) (s_b_dest : Apart bP 4 destP 4) :
    C.glm_vec4_muladd.run mem [aP.val, bP.val, destP.val] =
      some (none, writes mem [(destP, (Cglm.glm_vec4_muladd a b dest).list.map .f)]) :=
  C55_vec4_muladd h_a h_b h_dest r_dest (Or.inr s_a_dest) (Or.inr s_b_dest)
example (a : V4 α) (b : V4 α) (dest : V4 α) : let mem : Mem α := [⟨false, a.list.map .f⟩, ⟨false, b.list.map .f⟩, ⟨true, dest.list.map .f⟩]
    Holds mem (0, 0) a.list ∧ Holds mem (1, 0) b.list ∧ Holds mem (2, 0) dest.list ∧ Room mem (2, 0) 4 ∧ Apart (0, 0) 4 (2, 0) 4 ∧ Apart (1, 0) 4 (2, 0) 4 :=
  ⟨.block rfl, .block rfl, .block rfl, .block rfl rfl, Or.inl (by decide), Or.inl (by decide)⟩

theorem C56_vec4_muladds {mem : Mem α} {aP destP : Ptr} {a : V4 α} (s : α) {dest : V4 α} (h_a : Holds mem aP a.list) (h_dest : Holds mem destP dest.list) (r_dest : Room mem destP 4) (s_a_dest : Apart aP 4 destP 4) :
    C.glm_vec4_muladds.run mem [aP.val, .f s, destP.val] =
      some (none, writes mem [(destP, (Cglm.glm_vec4_muladds a s dest).list.map .f)]) :=
  C55_vec4_muladds s h_a h_dest r_dest (Or.inr s_a_dest)
example (a : V4 α) (dest : V4 α) : let mem : Mem α := [⟨false, a.list.map .f⟩, ⟨true, dest.list.map .f⟩]
    Holds mem (0, 0) a.list ∧ Holds mem (1, 0) dest.list ∧ Room mem (1, 0) 4 ∧ Apart (0, 0) 4 (1, 0) 4 :=
  ⟨.block rfl, .block rfl, .block rfl rfl, Or.inl (by decide)⟩

theorem C56_vec4_maxadd {mem : Mem α} {aP bP destP : Ptr} {a : V4 α} {b : V4 α} {dest : V4 α} (h_a : Holds mem aP a.list) (h_b : Holds mem bP b.list) (h_dest : Holds mem destP dest.list) (r_dest : Room mem destP 4) (s_a_dest : Apart aP 4 destP 4) (s_b_dest : Apart bP 4 destP 4) :
    C.glm_vec4_maxadd.run mem [aP.val, bP.val, destP.val] =
      some (none, writes mem [(destP, (Cglm.glm_vec4_maxadd a b dest).list.map .f)]) :=
  C55_vec4_maxadd h_a h_b h_dest r_dest (Or.inr s_a_dest) (Or.inr s_b_dest)
example (a : V4 α) (b : V4 α) (dest : V4 α) : let mem : Mem α := [⟨false, a.list.map .f⟩, ⟨false, b.list.map .f⟩, ⟨true, dest.list.map .f⟩]
    Holds mem (0, 0) a.list ∧ Holds mem (1, 0) b.list ∧ Holds mem (2, 0) dest.list ∧ Room mem (2, 0) 4 ∧ Apart (0, 0) 4 (2, 0) 4 ∧ Apart (1, 0) 4 (2, 0) 4 :=
  ⟨.block rfl, .block rfl, .block rfl, .block rfl rfl, Or.inl (by decide), Or.inl (by decide)⟩

theorem C56_vec4_minadd {mem : Mem α} {aP bP destP : Ptr} {a : V4 α} {b : V4 α} {dest : V4 α} (h_a : Holds mem aP a.list) (h_b : Holds mem bP b.list) (h_dest : Holds mem destP dest.list) (r_dest : Room mem destP 4) (s_a_dest : Apart aP 4 destP 4) (s_b_dest : Apart bP 4 destP 4) :
    C.glm_vec4_minadd.run mem [aP.val, bP.val, destP.val] =
      some (none, writes mem [(destP, (Cglm.glm_vec4_minadd a b dest).list.map .f)]) :=
  C55_vec4_minadd h_a h_b h_dest r_dest (Or.inr s_a_dest) (Or.inr s_b_dest)
example (a : V4 α) (b : V4 α) (dest : V4 α) : let mem : Mem α := [⟨false, a.list.map .f⟩, ⟨false, b.list.map .f⟩, ⟨true, dest.list.map .f⟩]
    Holds mem (0, 0) a.list ∧ Holds mem (1, 0) b.list ∧ Holds mem (2, 0) dest.list ∧ Room mem (2, 0) 4 ∧ Apart (0, 0) 4 (2, 0) 4 ∧ Apart (1, 0) 4 (2, 0) 4 :=
  ⟨.block rfl, .block rfl, .block rfl, .block rfl rfl, Or.inl (by decide), Or.inl (by decide)⟩

theorem C56_vec4_subsub {mem : Mem α} {aP bP destP : Ptr} {a : V4 α} {b : V4 α} {dest : V4 α} (h_a : Holds mem aP a.list) (h_b : Holds mem bP b.list) (h_dest : Holds mem destP dest.list) (r_dest : Room mem destP 4) (s_a_dest : Apart aP 4 destP 4) (s_b_dest : Apart bP 4 destP 4) :
    C.glm_vec4_subsub.run mem [aP.val, bP.val, destP.val] =
      some (none, writes mem [(destP, (Cglm.glm_vec4_subsub a b dest).list.map .f)]) :=
  C55_vec4_subsub h_a h_b h_dest r_dest (Or.inr s_a_dest) (Or.inr s_b_dest)
example (a : V4 α) (b : V4 α) (dest : V4 α) : let mem : Mem α := [⟨false, a.list.map .f⟩, ⟨false, b.list.map .f⟩, ⟨true, dest.list.map .f⟩]
    Holds mem (0, 0) a.list ∧ Holds mem (1, 0) b.list ∧ Holds mem (2, 0) dest.list ∧ Room mem (2, 0) 4 ∧ Apart (0, 0) 4 (2, 0) 4 ∧ Apart (1, 0) 4 (2, 0) 4 :=
  ⟨.block rfl, .block rfl, .block rfl, .block rfl rfl, Or.inl (by decide), Or.inl (by decide)⟩

theorem C56_vec4_addsub {mem : Mem α} {aP bP destP : Ptr} {a : V4 α} {b : V4 α} {dest : V4 α} (h_a : Holds mem aP a.list) (h_b : Holds mem bP b.list) (h_dest : Holds mem destP dest.list) (r_dest : Room mem destP 4) (s_a_dest : Apart aP 4 destP 4) (s_b_dest : Apart bP 4 destP 4) :
    C.glm_vec4_addsub.run mem [aP.val, bP.val, destP.val] =
      some (none, writes mem [(destP, (Cglm.glm_vec4_addsub a b dest).list.map .f)]) :=
  C55_vec4_addsub h_a h_b h_dest r_dest (Or.inr s_a_dest) (Or.inr s_b_dest)
example (a : V4 α) (b : V4 α) (dest : V4 α) : let mem : Mem α := [⟨false, a.list.map .f⟩, ⟨false, b.list.map .f⟩, ⟨true, dest.list.map .f⟩]
    Holds mem (0, 0) a.list ∧ Holds mem (1, 0) b.list ∧ Holds mem (2, 0) dest.list ∧ Room mem (2, 0) 4 ∧ Apart (0, 0) 4 (2, 0) 4 ∧ Apart (1, 0) 4 (2, 0) 4 :=
  ⟨.block rfl, .block rfl, .block rfl, .block rfl rfl, Or.inl (by decide), Or.inl (by decide)⟩

theorem C56_vec4_mulsub {mem : Mem α} {aP bP destP : Ptr} {a : V4 α} {b : V4 α} {dest : V4 α} (h_a : Holds mem aP a.list) (h_b : Holds mem bP b.list) (h_dest : Holds mem destP dest.list) (r_dest : Room mem destP 4) (s_a_dest : Apart aP 4 destP 4) (s_b_dest : Apart bP 4 destP 4) :
    C.glm_vec4_mulsub.run mem [aP.val, bP.val, destP.val] =
      some (none, writes mem [(destP, (Cglm.glm_vec4_mulsub a b dest).list.map .f)]) :=
  C55_vec4_mulsub h_a h_b h_dest r_dest (Or.inr s_a_dest) (Or.inr s_b_dest)
example (a : V4 α) (b : V4 α) (dest : V4 α) : let mem : Mem α := [⟨false, a.list.map .f⟩, ⟨false, b.list.map .f⟩, ⟨true, dest.list.map .f⟩]
    Holds mem (0, 0) a.list ∧ Holds mem (1, 0) b.list ∧ Holds mem (2, 0) dest.list ∧ Room mem (2, 0) 4 ∧ Apart (0, 0) 4 (2, 0) 4 ∧ Apart (1, 0) 4 (2, 0) 4 :=
  ⟨.block rfl, .block rfl, .block rfl, .block rfl rfl, Or.inl (by decide), Or.inl (by decide)⟩

theorem C56_vec4_mulsubs {mem : Mem α} {aP destP : Ptr} {a : V4 α} (s : α) {dest : V4 α} (h_a : Holds mem aP a.list) (h_dest : Holds mem destP dest.list) (r_dest : Room mem destP 4) (s_a_dest : Apart aP 4 destP 4) :
    C.glm_vec4_mulsubs.run mem [aP.val, .f s, destP.val] =
      some (none, writes mem [(destP, (Cglm.glm_vec4_mulsubs a s dest).list.map .f)]) :=
  C55_vec4_mulsubs s h_a h_dest r_dest (Or.inr s_a_dest)
example (a : V4 α) (dest : V4 α) : let mem : Mem α := [⟨false, a.list.map .f⟩, ⟨true, dest.list.map .f⟩]
    Holds mem (0, 0) a.list ∧ Holds mem (1, 0) dest.list ∧ Room mem (1, 0) 4 ∧ Apart (0, 0) 4 (1, 0) 4 :=
  ⟨.block rfl, .block rfl, .block rfl rfl, Or.inl (by decide)⟩

theorem C56_vec4_maxsub {mem : Mem α} {aP bP destP : Ptr} {a : V4 α} {b : V4 α} {dest : V4 α} (h_a : Holds mem aP a.list) (h_b : Holds mem bP b.list) (h_dest : Holds mem destP dest.list) (r_dest : Room mem destP 4) (s_a_dest : Apart aP 4 destP 4) (s_b_dest : Apart bP 4 destP 4) :
    C.glm_vec4_maxsub.run mem [aP.val, bP.val, destP.val] =
      some (none, writes mem [(destP, (Cglm.glm_vec4_maxsub a b dest).list.map .f)]) :=
  C55_vec4_maxsub h_a h_b h_dest r_dest (Or.inr s_a_dest) (Or.inr s_b_dest)
example (a : V4 α) (b : V4 α) (dest : V4 α) : let mem : Mem α := [⟨false, a.list.map .f⟩, ⟨false, b.list.map .f⟩, ⟨true, dest.list.map .f⟩]
    Holds mem (0, 0) a.list ∧ Holds mem (1, 0) b.list ∧ Holds mem (2, 0) dest.list ∧ Room mem (2, 0) 4 ∧ Apart (0, 0) 4 (2, 0) 4 ∧ Apart (1, 0) 4 (2, 0) 4 :=
  ⟨.block rfl, .block rfl, .block rfl, .block rfl rfl, Or.inl (by decide), Or.inl (by decide)⟩

theorem C56_vec4_minsub {mem : Mem α} {aP bP destP : Ptr} {a : V4 α} {b : V4 α} {dest : V4 α} (h_a : Holds mem aP a.list) (h_b : Holds mem bP b.list) (h_dest : Holds mem destP dest.list) (r_dest : Room mem destP 4) (s_a_dest : Apart aP 4 destP 4) (s_b_dest : Apart bP 4 destP 4) :
    C.glm_vec4_minsub.run mem [aP.val, bP.val, destP.val] =
      some (none, writes mem [(destP, (Cglm.glm_vec4_minsub a b dest).list.map .f)]) :=
  C55_vec4_minsub h_a h_b h_dest r_dest (Or.inr s_a_dest) (Or.inr s_b_dest)
example (a : V4 α) (b : V4 α) (dest : V4 α) : let mem : Mem α := [⟨false, a.list.map .f⟩, ⟨false, b.list.map .f⟩, ⟨true, dest.list.map .f⟩]
    Holds mem (0, 0) a.list ∧ Holds mem (1, 0) b.list ∧ Holds mem (2, 0) dest.list ∧ Room mem (2, 0) 4 ∧ Apart (0, 0) 4 (2, 0) 4 ∧ Apart (1, 0) 4 (2, 0) 4 :=
  ⟨.block rfl, .block rfl, .block rfl, .block rfl rfl, Or.inl (by decide), Or.inl (by decide)⟩

theorem C56_vec4_negate_to {mem : Mem α} {vP destP : Ptr} {v : V4 α} (h_v : Holds mem vP v.list) (r_dest : Room mem destP 4) (s_v_dest : Apart vP 4 destP 4) :
    C.glm_vec4_negate_to.run mem [vP.val, destP.val] =
      some (none, writes mem [(destP, (Cglm.glm_vec4_negate_to v).list.map .f)]) :=
  C55_vec4_negate_to h_v r_dest (Or.inr s_v_dest)
example (v : V4 α) : let mem : Mem α := [⟨false, v.list.map .f⟩, ⟨true, List.replicate 4 .undef⟩]
    Holds mem (0, 0) v.list ∧ Room mem (1, 0) 4 ∧ Apart (0, 0) 4 (1, 0) 4 :=
  ⟨.block rfl, .block rfl rfl, Or.inl (by decide)⟩

theorem C56_vec4_negate {mem : Mem α} {vP : Ptr} {v : V4 α} (h_v : Holds mem vP v.list) (r_v : Room mem vP 4) :
    C.glm_vec4_negate.run mem [vP.val] =
      some (none, writes mem [(vP, (Cglm.glm_vec4_negate v).list.map .f)]) := by
  exact transferL ((R.nil _).addW h_v.has r_v .nil) (.p rfl .nil) (glm_vec4_negate_run _) (DT.val_done _) rfl rfl
example (v : V4 α) : let mem : Mem α := [⟨true, v.list.map .f⟩]
    Holds mem (0, 0) v.list ∧ Room mem (0, 0) 4 :=
  ⟨.block rfl, .block rfl rfl⟩

theorem C56_vec4_normalize_to {mem : Mem α} {vP destP : Ptr} {v : V4 α} (h_v : Holds mem vP v.list) (r_dest : Room mem destP 4) (s_v_dest : Apart vP 4 destP 4) :
    C.glm_vec4_normalize_to.run mem [vP.val, destP.val] =
      some (none, writes mem [(destP, (Cglm.glm_vec4_normalize_to v).list.map .f)]) :=
  C55_vec4_normalize_to h_v r_dest (Or.inr s_v_dest)
example (v : V4 α) : let mem : Mem α := [⟨false, v.list.map .f⟩, ⟨true, List.replicate 4 .undef⟩]
    Holds mem (0, 0) v.list ∧ Room mem (1, 0) 4 ∧ Apart (0, 0) 4 (1, 0) 4 :=
  ⟨.block rfl, .block rfl rfl, Or.inl (by decide)⟩

theorem C56_vec4_normalize {mem : Mem α} {vP : Ptr} {v : V4 α} (h_v : Holds mem vP v.list) (r_v : Room mem vP 4) :
    C.glm_vec4_normalize.run mem [vP.val] =
      some (none, writes mem [(vP, (Cglm.glm_vec4_normalize v).list.map .f)]) := by
  exact transferL ((R.nil _).addW h_v.has r_v .nil) (.p rfl .nil) (glm_vec4_normalize_run _) (DT.val_map_eq (glm_vec4_normalize_dt_val _) rfl) rfl rfl
example (v : V4 α) : let mem : Mem α := [⟨true, v.list.map .f⟩]
    Holds mem (0, 0) v.list ∧ Room mem (0, 0) 4 :=
  ⟨.block rfl, .block rfl rfl⟩

theorem C56_vec4_distance {mem : Mem α} {aP bP : Ptr} {a : V4 α} {b : V4 α} (h_a : Holds mem aP a.list) (h_b : Holds mem bP b.list) :
    C.glm_vec4_distance.run mem [aP.val, bP.val] =
      some (some (.f (Cglm.glm_vec4_distance a b)), mem) := by
  exact transferL (((R.nil _).addR h_b.has .nil).addR h_a.has (.skip .nil)) (.p rfl (.p rfl .nil)) (glm_vec4_distance_run _ _) (DT.val_done _) rfl rfl
example (a : V4 α) (b : V4 α) : let mem : Mem α := [⟨false, a.list.map .f⟩, ⟨false, b.list.map .f⟩]
    Holds mem (0, 0) a.list ∧ Holds mem (1, 0) b.list :=
  ⟨.block rfl, .block rfl⟩

theorem C56_vec4_distance2 {mem : Mem α} {aP bP : Ptr} {a : V4 α} {b : V4 α} (h_a : Holds mem aP a.list) (h_b : Holds mem bP b.list) :
    C.glm_vec4_distance2.run mem [aP.val, bP.val] =
      some (some (.f (Cglm.glm_vec4_distance2 a b)), mem) := by
  exact transferL (((R.nil _).addR h_b.has .nil).addR h_a.has (.skip .nil)) (.p rfl (.p rfl .nil)) (glm_vec4_distance2_run _ _) (DT.val_done _) rfl rfl
example (a : V4 α) (b : V4 α) : let mem : Mem α := [⟨false, a.list.map .f⟩, ⟨false, b.list.map .f⟩]
    Holds mem (0, 0) a.list ∧ Holds mem (1, 0) b.list :=
  ⟨.block rfl, .block rfl⟩

theorem C56_vec4_maxv {mem : Mem α} {aP bP destP : Ptr} {a : V4 α} {b : V4 α} (h_a : Holds mem aP a.list) (h_b : Holds mem bP b.list) (r_dest : Room mem destP 4) (s_a_dest : Apart aP 4 destP 4) (s_b_dest : Apart bP 4 destP 4) :
    C.glm_vec4_maxv.run mem [aP.val, bP.val, destP.val] =
      some (none, writes mem [(destP, (Cglm.glm_vec4_maxv a b).list.map .f)]) :=
  C55_vec4_maxv h_a h_b r_dest (Or.inr s_a_dest) (Or.inr s_b_dest)
example (a : V4 α) (b : V4 α) : let mem : Mem α := [⟨false, a.list.map .f⟩, ⟨false, b.list.map .f⟩, ⟨true, List.replicate 4 .undef⟩]
    Holds mem (0, 0) a.list ∧ Holds mem (1, 0) b.list ∧ Room mem (2, 0) 4 ∧ Apart (0, 0) 4 (2, 0) 4 ∧ Apart (1, 0) 4 (2, 0) 4 :=
  ⟨.block rfl, .block rfl, .block rfl rfl, Or.inl (by decide), Or.inl (by decide)⟩

theorem C56_vec4_minv {mem : Mem α} {aP bP destP : Ptr} {a : V4 α} {b : V4 α} (h_a : Holds mem aP a.list) (h_b : Holds mem bP b.list) (r_dest : Room mem destP 4) (s_a_dest : Apart aP 4 destP 4) (s_b_dest : Apart bP 4 destP 4) :
    C.glm_vec4_minv.run mem [aP.val, bP.val, destP.val] =
      some (none, writes mem [(destP, (Cglm.glm_vec4_minv a b).list.map .f)]) :=
  C55_vec4_minv h_a h_b r_dest (Or.inr s_a_dest) (Or.inr s_b_dest)
example (a : V4 α) (b : V4 α) : let mem : Mem α := [⟨false, a.list.map .f⟩, ⟨false, b.list.map .f⟩, ⟨true, List.replicate 4 .undef⟩]
    Holds mem (0, 0) a.list ∧ Holds mem (1, 0) b.list ∧ Room mem (2, 0) 4 ∧ Apart (0, 0) 4 (2, 0) 4 ∧ Apart (1, 0) 4 (2, 0) 4 :=
  ⟨.block rfl, .block rfl, .block rfl rfl, Or.inl (by decide), Or.inl (by decide)⟩

theorem C56_vec4_clamp {mem : Mem α} {vP : Ptr} {v : V4 α} (minVal : α) (maxVal : α) (h_v : Holds mem vP v.list) (r_v : Room mem vP 4) :
    C.glm_vec4_clamp.run mem [vP.val, .f minVal, .f maxVal] =
      some (none, writes mem [(vP, (Cglm.glm_vec4_clamp v minVal maxVal).list.map .f)]) := by
  exact transferL ((R.nil _).addW h_v.has r_v .nil) (.p rfl (.f (.f .nil))) (glm_vec4_clamp_run _ _ _) (DT.val_done _) rfl rfl
example (v : V4 α) : let mem : Mem α := [⟨true, v.list.map .f⟩]
    Holds mem (0, 0) v.list ∧ Room mem (0, 0) 4 :=
  ⟨.block rfl, .block rfl rfl⟩

theorem C56_vec4_lerp {mem : Mem α} {frmP toP destP : Ptr} {frm : V4 α} {«to» : V4 α} (t : α) (h_frm : Holds mem frmP frm.list) (h_to : Holds mem toP «to».list) (r_dest : Room mem destP 4) (s_frm_dest : Apart frmP 4 destP 4) (s_to_dest : Apart toP 4 destP 4) :
    C.glm_vec4_lerp.run mem [frmP.val, toP.val, .f t, destP.val] =
      some (none, writes mem [(destP, (Cglm.glm_vec4_lerp frm «to» t).list.map .f)]) :=
  C55_vec4_lerp t h_frm h_to r_dest (Or.inr s_frm_dest) (Or.inr s_to_dest)
example (frm : V4 α) («to» : V4 α) : let mem : Mem α := [⟨false, frm.list.map .f⟩, ⟨false, «to».list.map .f⟩, ⟨true, List.replicate 4 .undef⟩]
    Holds mem (0, 0) frm.list ∧ Holds mem (1, 0) «to».list ∧ Room mem (2, 0) 4 ∧ Apart (0, 0) 4 (2, 0) 4 ∧ Apart (1, 0) 4 (2, 0) 4 :=
  ⟨.block rfl, .block rfl, .block rfl rfl, Or.inl (by decide), Or.inl (by decide)⟩

theorem C56_vec4_lerpc {mem : Mem α} {frmP toP destP : Ptr} {frm : V4 α} {«to» : V4 α} (t : α) (h_frm : Holds mem frmP frm.list) (h_to : Holds mem toP «to».list) (r_dest : Room mem destP 4) (s_frm_dest : Apart frmP 4 destP 4) (s_to_dest : Apart toP 4 destP 4) :
    C.glm_vec4_lerpc.run mem [frmP.val, toP.val, .f t, destP.val] =
      some (none, writes mem [(destP, (Cglm.glm_vec4_lerpc frm «to» t).list.map .f)]) :=
  C55_vec4_lerpc t h_frm h_to r_dest (Or.inr s_frm_dest) (Or.inr s_to_dest)
example (frm : V4 α) («to» : V4 α) : let mem : Mem α := [⟨false, frm.list.map .f⟩, ⟨false, «to».list.map .f⟩, ⟨true, List.replicate 4 .undef⟩]
    Holds mem (0, 0) frm.list ∧ Holds mem (1, 0) «to».list ∧ Room mem (2, 0) 4 ∧ Apart (0, 0) 4 (2, 0) 4 ∧ Apart (1, 0) 4 (2, 0) 4 :=
  ⟨.block rfl, .block rfl, .block rfl rfl, Or.inl (by decide), Or.inl (by decide)⟩

theorem C56_vec4_mix {mem : Mem α} {frmP toP destP : Ptr} {frm : V4 α} {«to» : V4 α} (t : α) (h_frm : Holds mem frmP frm.list) (h_to : Holds mem toP «to».list) (r_dest : Room mem destP 4) (s_frm_dest : Apart frmP 4 destP 4) (s_to_dest : Apart toP 4 destP 4) :
    C.glm_vec4_mix.run mem [frmP.val, toP.val, .f t, destP.val] =
      some (none, writes mem [(destP, (Cglm.glm_vec4_mix frm «to» t).list.map .f)]) :=
  C55_vec4_mix t h_frm h_to r_dest (Or.inr s_frm_dest) (Or.inr s_to_dest)
example (frm : V4 α) («to» : V4 α) : let mem : Mem α := [⟨false, frm.list.map .f⟩, ⟨false, «to».list.map .f⟩, ⟨true, List.replicate 4 .undef⟩]
    Holds mem (0, 0) frm.list ∧ Holds mem (1, 0) «to».list ∧ Room mem (2, 0) 4 ∧ Apart (0, 0) 4 (2, 0) 4 ∧ Apart (1, 0) 4 (2, 0) 4 :=
  ⟨.block rfl, .block rfl, .block rfl rfl, Or.inl (by decide), Or.inl (by decide)⟩

theorem C56_vec4_mixc {mem : Mem α} {frmP toP destP : Ptr} {frm : V4 α} {«to» : V4 α} (t : α) (h_frm : Holds mem frmP frm.list) (h_to : Holds mem toP «to».list) (r_dest : Room mem destP 4) (s_frm_dest : Apart frmP 4 destP 4) (s_to_dest : Apart toP 4 destP 4) :
    C.glm_vec4_mixc.run mem [frmP.val, toP.val, .f t, destP.val] =
      some (none, writes mem [(destP, (Cglm.glm_vec4_mixc frm «to» t).list.map .f)]) :=
  C55_vec4_mixc t h_frm h_to r_dest (Or.inr s_frm_dest) (Or.inr s_to_dest)
example (frm : V4 α) («to» : V4 α) : let mem : Mem α := [⟨false, frm.list.map .f⟩, ⟨false, «to».list.map .f⟩, ⟨true, List.replicate 4 .undef⟩]
    Holds mem (0, 0) frm.list ∧ Holds mem (1, 0) «to».list ∧ Room mem (2, 0) 4 ∧ Apart (0, 0) 4 (2, 0) 4 ∧ Apart (1, 0) 4 (2, 0) 4 :=
  ⟨.block rfl, .block rfl, .block rfl rfl, Or.inl (by decide), Or.inl (by decide)⟩

theorem C56_vec4_step {mem : Mem α} {edgeP xP destP : Ptr} {edge : V4 α} {x : V4 α} (h_edge : Holds mem edgeP edge.list) (h_x : Holds mem xP x.list) (r_dest : Room mem destP 4) (s_edge_dest : Apart edgeP 4 destP 4) (s_x_dest : Apart xP 4 destP 4) :
    C.glm_vec4_step.run mem [edgeP.val, xP.val, destP.val] =
      some (none, writes mem [(destP, (Cglm.glm_vec4_step edge x).list.map .f)]) :=
  C55_vec4_step h_edge h_x r_dest (Or.inr s_edge_dest) (Or.inr s_x_dest)
example (edge : V4 α) (x : V4 α) : let mem : Mem α := [⟨false, edge.list.map .f⟩, ⟨false, x.list.map .f⟩, ⟨true, List.replicate 4 .undef⟩]
    Holds mem (0, 0) edge.list ∧ Holds mem (1, 0) x.list ∧ Room mem (2, 0) 4 ∧ Apart (0, 0) 4 (2, 0) 4 ∧ Apart (1, 0) 4 (2, 0) 4 :=
  ⟨.block rfl, .block rfl, .block rfl rfl, Or.inl (by decide), Or.inl (by decide)⟩

theorem C56_vec4_smoothstep_uni {mem : Mem α} {xP destP : Ptr} (edge0 : α) (edge1 : α) {x : V4 α} (h_x : Holds mem xP x.list) (r_dest : Room mem destP 4) (s_x_dest : Apart xP 4 destP 4) :
    C.glm_vec4_smoothstep_uni.run mem [.f edge0, .f edge1, xP.val, destP.val] =
      some (none, writes mem [(destP, (Cglm.glm_vec4_smoothstep_uni edge0 edge1 x).list.map .f)]) :=
  C55_vec4_smoothstep_uni edge0 edge1 h_x r_dest (Or.inr s_x_dest)
example (x : V4 α) : let mem : Mem α := [⟨false, x.list.map .f⟩, ⟨true, List.replicate 4 .undef⟩]
    Holds mem (0, 0) x.list ∧ Room mem (1, 0) 4 ∧ Apart (0, 0) 4 (1, 0) 4 :=
  ⟨.block rfl, .block rfl rfl, Or.inl (by decide)⟩

theorem C56_vec4_smoothstep {mem : Mem α} {edge0P edge1P xP destP : Ptr} {edge0 : V4 α} {edge1 : V4 α} {x : V4 α} (h_edge0 : Holds mem edge0P edge0.list) (h_edge1 : Holds mem edge1P edge1.list) (h_x : Holds mem xP x.list) (r_dest : Room mem destP 4) (s_edge0_dest : Apart edge0P 4 destP 4) (s_edge1_dest : Apart edge1P 4 destP 4) (s_x_dest : Apart xP 4 destP 4) :
    C.glm_vec4_smoothstep.run mem [edge0P.val, edge1P.val, xP.val, destP.val] =
      some (none, writes mem [(destP, (Cglm.glm_vec4_smoothstep edge0 edge1 x).list.map .f)]) :=
  C55_vec4_smoothstep h_edge0 h_edge1 h_x r_dest (Or.inr s_edge0_dest) (Or.inr s_edge1_dest) (Or.inr s_x_dest)
example (edge0 : V4 α) (edge1 : V4 α) (x : V4 α) : let mem : Mem α := [⟨false, edge0.list.map .f⟩, ⟨false, edge1.list.map .f⟩, ⟨false, x.list.map .f⟩, ⟨true, List.replicate 4 .undef⟩]
    Holds mem (0, 0) edge0.list ∧ Holds mem (1, 0) edge1.list ∧ Holds mem (2, 0) x.list ∧ Room mem (3, 0) 4 ∧ Apart (0, 0) 4 (3, 0) 4 ∧ Apart (1, 0) 4 (3, 0) 4 ∧ Apart (2, 0) 4 (3, 0) 4 :=
  ⟨.block rfl, .block rfl, .block rfl, .block rfl rfl, Or.inl (by decide), Or.inl (by decide), Or.inl (by decide)⟩

theorem C56_vec4_smoothinterp {mem : Mem α} {frmP toP destP : Ptr} {frm : V4 α} {«to» : V4 α} (t : α) (h_frm : Holds mem frmP frm.list) (h_to : Holds mem toP «to».list) (r_dest : Room mem destP 4) (s_frm_dest : Apart frmP 4 destP 4) (s_to_dest : Apart toP 4 destP 4) :
    C.glm_vec4_smoothinterp.run mem [frmP.val, toP.val, .f t, destP.val] =
      some (none, writes mem [(destP, (Cglm.glm_vec4_smoothinterp frm «to» t).list.map .f)]) :=
  C55_vec4_smoothinterp t h_frm h_to r_dest (Or.inr s_frm_dest) (Or.inr s_to_dest)
example (frm : V4 α) («to» : V4 α) : let mem : Mem α := [⟨false, frm.list.map .f⟩, ⟨false, «to».list.map .f⟩, ⟨true, List.replicate 4 .undef⟩]
    Holds mem (0, 0) frm.list ∧ Holds mem (1, 0) «to».list ∧ Room mem (2, 0) 4 ∧ Apart (0, 0) 4 (2, 0) 4 ∧ Apart (1, 0) 4 (2, 0) 4 :=
  ⟨.block rfl, .block rfl, .block rfl rfl, Or.inl (by decide), Or.inl (by decide)⟩

theorem C56_vec4_smoothinterpc {mem : Mem α} {frmP toP destP : Ptr} {frm : V4 α} {«to» : V4 α} (t : α) (h_frm : Holds mem frmP frm.list) (h_to : Holds mem toP «to».list) (r_dest : Room mem destP 4) (s_frm_dest : Apart frmP 4 destP 4) (s_to_dest : Apart toP 4 destP 4) :
    C.glm_vec4_smoothinterpc.run mem [frmP.val, toP.val, .f t, destP.val] =
      some (none, writes mem [(destP, (Cglm.glm_vec4_smoothinterpc frm «to» t).list.map .f)]) :=
  C55_vec4_smoothinterpc t h_frm h_to r_dest (Or.inr s_frm_dest) (Or.inr s_to_dest)
example (frm : V4 α) («to» : V4 α) : let mem : Mem α := [⟨false, frm.list.map .f⟩, ⟨false, «to».list.map .f⟩, ⟨true, List.replicate 4 .undef⟩]
    Holds mem (0, 0) frm.list ∧ Holds mem (1, 0) «to».list ∧ Room mem (2, 0) 4 ∧ Apart (0, 0) 4 (2, 0) 4 ∧ Apart (1, 0) 4 (2, 0) 4 :=
  ⟨.block rfl, .block rfl, .block rfl rfl, Or.inl (by decide), Or.inl (by decide)⟩

theorem C56_vec4_cubic {mem : Mem α} {destP : Ptr} (s : α) (r_dest : Room mem destP 4) :
    C.glm_vec4_cubic.run mem [.f s, destP.val] =
      some (none, writes mem [(destP, (Cglm.glm_vec4_cubic s).list.map .f)]) := by
  exact transferL ((R.nil _).addW r_dest.has r_dest .nil) (.f (.p rfl .nil)) (glm_vec4_cubic_run _) (DT.val_done _) rfl rfl
example : let mem : Mem α := [⟨true, List.replicate 4 .undef⟩]
    Room mem (0, 0) 4 :=
  .block rfl rfl

theorem C56_vec4_make {mem : Mem α} {srcP destP : Ptr} {src : V4 α} (h_src : Holds mem srcP src.list) (r_dest : Room mem destP 4) (s_src_dest : Apart srcP 4 destP 4) :
    C.glm_vec4_make.run mem [srcP.val, destP.val] =
      some (none, writes mem [(destP, (Cglm.glm_vec4_make src).list.map .f)]) :=
  C55_vec4_make h_src r_dest (Or.inr s_src_dest)
example (src : V4 α) : let mem : Mem α := [⟨false, src.list.map .f⟩, ⟨true, List.replicate 4 .undef⟩]
    Holds mem (0, 0) src.list ∧ Room mem (1, 0) 4 ∧ Apart (0, 0) 4 (1, 0) 4 :=
  ⟨.block rfl, .block rfl rfl, Or.inl (by decide)⟩

theorem C56_vec4_reflect {mem : Mem α} {vP nP destP : Ptr} {v : V4 α} {n : V4 α} (h_v : Holds mem vP v.list) (h_n : Holds mem nP n.list) (r_dest : Room mem destP 4) (s_v_dest : Apart vP 4 destP 4) (s_n_dest : Apart nP 4 destP 4) :
    C.glm_vec4_reflect.run mem [vP.val, nP.val, destP.val] =
      some (none, writes mem [(destP, (Cglm.glm_vec4_reflect v n).list.map .f)]) :=
  C55_vec4_reflect h_v h_n r_dest s_v_dest (Or.inr s_n_dest)
example (v : V4 α) (n : V4 α) : let mem : Mem α := [⟨false, v.list.map .f⟩, ⟨false, n.list.map .f⟩, ⟨true, List.replicate 4 .undef⟩]
    Holds mem (0, 0) v.list ∧ Holds mem (1, 0) n.list ∧ Room mem (2, 0) 4 ∧ Apart (0, 0) 4 (2, 0) 4 ∧ Apart (1, 0) 4 (2, 0) 4 :=
  ⟨.block rfl, .block rfl, .block rfl rfl, Or.inl (by decide), Or.inl (by decide)⟩

theorem C56_vec4_refract {mem : Mem α} {vP nP destP : Ptr} {v : V4 α} {n : V4 α} (eta : α) (h_v : Holds mem vP v.list) (h_n : Holds mem nP n.list) (r_dest : Room mem destP 4) (s_v_dest : Apart vP 4 destP 4) (s_n_dest : Apart nP 4 destP 4) :
    C.glm_vec4_refract.run mem [vP.val, nP.val, .f eta, destP.val] =
      some (some (.b (Cglm.glm_vec4_refract v n eta).1), writes mem [(destP, (Cglm.glm_vec4_refract v n eta).2.list.map .f)]) :=
  C55_vec4_refract eta h_v h_n r_dest (Or.inr s_v_dest) s_n_dest
example (v : V4 α) (n : V4 α) : let mem : Mem α := [⟨false, v.list.map .f⟩, ⟨false, n.list.map .f⟩, ⟨true, List.replicate 4 .undef⟩]
    Holds mem (0, 0) v.list ∧ Holds mem (1, 0) n.list ∧ Room mem (2, 0) 4 ∧ Apart (0, 0) 4 (2, 0) 4 ∧ Apart (1, 0) 4 (2, 0) 4 :=
  ⟨.block rfl, .block rfl, .block rfl rfl, Or.inl (by decide), Or.inl (by decide)⟩

end Cglm

end C56Vec4

section C56Vec4Ext

/-!
# C56: memory safety and framing (include/cglm/vec4-ext.h)

Called with initialised inputs and a writable destination that does not overlap them, the function is defined,
returns the value-level result and changes no memory but its destination.
-/

set_option linter.unusedVariables false
set_option linter.unusedSectionVars false

namespace Cglm
open CMem

variable {α : Type} [Add α] [Sub α] [Mul α] [Div α] [Neg α] [CFloat α]

theorem C56_vec4_broadcast {mem : Mem α} {dP : Ptr} (val : α) (r_d : Room mem dP 4) :
    C.glm_vec4_broadcast.run mem [.f val, dP.val] =
      some (none, writes mem [(dP, (Cglm.glm_vec4_broadcast val).list.map .f)]) := by
  exact transferL ((R.nil _).addW r_d.has r_d .nil) (.f (.p rfl .nil)) (glm_vec4_broadcast_run _) (DT.val_done _) rfl rfl
example : let mem : Mem α := [⟨true, List.replicate 4 .undef⟩]
    Room mem (0, 0) 4 :=
  .block rfl rfl

theorem C56_vec4_fill {mem : Mem α} {vP : Ptr} (val : α) (r_v : Room mem vP 4) :
    C.glm_vec4_fill.run mem [vP.val, .f val] =
      some (none, writes mem [(vP, (Cglm.glm_vec4_fill val).list.map .f)]) := by
  exact transferL ((R.nil _).addW r_v.has r_v .nil) (.p rfl (.f .nil)) (glm_vec4_fill_run _) (DT.val_done _) rfl rfl
example : let mem : Mem α := [⟨true, List.replicate 4 .undef⟩]
    Room mem (0, 0) 4 :=
  .block rfl rfl

theorem C56_vec4_eq {mem : Mem α} {vP : Ptr} {v : V4 α} (val : α) (h_v : Holds mem vP v.list) :
    C.glm_vec4_eq.run mem [vP.val, .f val] =
      some (some (.b (Cglm.glm_vec4_eq v val)), mem) := by
  exact transferL ((R.nil _).addR h_v.has .nil) (.p rfl (.f .nil)) (glm_vec4_eq_run _ _) (DT.val_done _) rfl rfl
example (v : V4 α) : let mem : Mem α := [⟨false, v.list.map .f⟩]
    Holds mem (0, 0) v.list :=
  .block rfl

theorem C56_vec4_eq_eps {mem : Mem α} {vP : Ptr} {v : V4 α} (val : α) (h_v : Holds mem vP v.list) :
    C.glm_vec4_eq_eps.run mem [vP.val, .f val] =
      some (some (.b (Cglm.glm_vec4_eq_eps v val)), mem) := by
  exact transferL ((R.nil _).addR h_v.has .nil) (.p rfl (.f .nil)) (glm_vec4_eq_eps_run _ _) (DT.val_done _) rfl rfl
example (v : V4 α) : let mem : Mem α := [⟨false, v.list.map .f⟩]
    Holds mem (0, 0) v.list :=
  .block rfl

theorem C56_vec4_eq_all {mem : Mem α} {vP : Ptr} {v : V4 α} (h_v : Holds mem vP v.list) :
    C.glm_vec4_eq_all.run mem [vP.val] =
      some (some (.b (Cglm.glm_vec4_eq_all v)), mem) := by
  exact transferL ((R.nil _).addR h_v.has .nil) (.p rfl .nil) (glm_vec4_eq_all_run _) (DT.val_done _) rfl rfl
example (v : V4 α) : let mem : Mem α := [⟨false, v.list.map .f⟩]
    Holds mem (0, 0) v.list :=
  .block rfl

theorem C56_vec4_eqv {mem : Mem α} {aP bP : Ptr} {a : V4 α} {b : V4 α} (h_a : Holds mem aP a.list) (h_b : Holds mem bP b.list) :
    C.glm_vec4_eqv.run mem [aP.val, bP.val] =
      some (some (.b (Cglm.glm_vec4_eqv a b)), mem) := by
  exact transferL (((R.nil _).addR h_b.has .nil).addR h_a.has (.skip .nil)) (.p rfl (.p rfl .nil)) (glm_vec4_eqv_run _ _) (DT.val_done _) rfl rfl
example (a : V4 α) (b : V4 α) : let mem : Mem α := [⟨false, a.list.map .f⟩, ⟨false, b.list.map .f⟩]
    Holds mem (0, 0) a.list ∧ Holds mem (1, 0) b.list :=
  ⟨.block rfl, .block rfl⟩

theorem C56_vec4_eqv_eps {mem : Mem α} {aP bP : Ptr} {a : V4 α} {b : V4 α} (h_a : Holds mem aP a.list) (h_b : Holds mem bP b.list) :
    C.glm_vec4_eqv_eps.run mem [aP.val, bP.val] =
      some (some (.b (Cglm.glm_vec4_eqv_eps a b)), mem) := by
  exact transferL (((R.nil _).addR h_b.has .nil).addR h_a.has (.skip .nil)) (.p rfl (.p rfl .nil)) (glm_vec4_eqv_eps_run _ _) (DT.val_done _) rfl rfl
example (a : V4 α) (b : V4 α) : let mem : Mem α := [⟨false, a.list.map .f⟩, ⟨false, b.list.map .f⟩]
    Holds mem (0, 0) a.list ∧ Holds mem (1, 0) b.list :=
  ⟨.block rfl, .block rfl⟩

theorem C56_vec4_max {mem : Mem α} {vP : Ptr} {v : V4 α} (h_v : Holds mem vP v.list) :
    C.glm_vec4_max.run mem [vP.val] =
      some (some (.f (Cglm.glm_vec4_max v)), mem) := by
  exact transferL ((R.nil _).addR h_v.has .nil) (.p rfl .nil) (glm_vec4_max_run _) (DT.val_map_eq (glm_vec4_max_dt_val _) rfl) rfl rfl
example (v : V4 α) : let mem : Mem α := [⟨false, v.list.map .f⟩]
    Holds mem (0, 0) v.list :=
  .block rfl

theorem C56_vec4_min {mem : Mem α} {vP : Ptr} {v : V4 α} (h_v : Holds mem vP v.list) :
    C.glm_vec4_min.run mem [vP.val] =
      some (some (.f (Cglm.glm_vec4_min v)), mem) := by
  exact transferL ((R.nil _).addR h_v.has .nil) (.p rfl .nil) (glm_vec4_min_run _) (DT.val_map_eq (glm_vec4_min_dt_val _) rfl) rfl rfl
example (v : V4 α) : let mem : Mem α := [⟨false, v.list.map .f⟩]
    Holds mem (0, 0) v.list :=
  .block rfl

theorem C56_vec4_isnan {mem : Mem α} {vP : Ptr} {v : V4 α} (h_v : Holds mem vP v.list) :
    C.glm_vec4_isnan.run mem [vP.val] =
      some (some (.b (Cglm.glm_vec4_isnan v)), mem) := by
  exact transferL ((R.nil _).addR h_v.has .nil) (.p rfl .nil) (glm_vec4_isnan_run _) (DT.val_done _) rfl rfl
example (v : V4 α) : let mem : Mem α := [⟨false, v.list.map .f⟩]
    Holds mem (0, 0) v.list :=
  .block rfl

theorem C56_vec4_isinf {mem : Mem α} {vP : Ptr} {v : V4 α} (h_v : Holds mem vP v.list) :
    C.glm_vec4_isinf.run mem [vP.val] =
      some (some (.b (Cglm.glm_vec4_isinf v)), mem) := by
  exact transferL ((R.nil _).addR h_v.has .nil) (.p rfl .nil) (glm_vec4_isinf_run _) (DT.val_done _) rfl rfl
example (v : V4 α) : let mem : Mem α := [⟨false, v.list.map .f⟩]
    Holds mem (0, 0) v.list :=
  .block rfl

theorem C56_vec4_isvalid {mem : Mem α} {vP : Ptr} {v : V4 α} (h_v : Holds mem vP v.list) :
    C.glm_vec4_isvalid.run mem [vP.val] =
      some (some (.b (Cglm.glm_vec4_isvalid v)), mem) := by
  exact transferL ((R.nil _).addR h_v.has .nil) (.p rfl .nil) (glm_vec4_isvalid_run _) (DT.val_done _) rfl rfl
example (v : V4 α) : let mem : Mem α := [⟨false, v.list.map .f⟩]
    Holds mem (0, 0) v.list :=
  .block rfl

theorem C56_vec4_sign {mem : Mem α} {vP destP : Ptr} {v : V4 α} (h_v : Holds mem vP v.list) (r_dest : Room mem destP 4) (s_v_dest : Apart vP 4 destP 4) :
    C.glm_vec4_sign.run mem [vP.val, destP.val] =
      some (none, writes mem [(destP, (Cglm.glm_vec4_sign v).list.map .f)]) :=
  C55_vec4_sign h_v r_dest (Or.inr s_v_dest)
example (v : V4 α) : let mem : Mem α := [⟨false, v.list.map .f⟩, ⟨true, List.replicate 4 .undef⟩]
    Holds mem (0, 0) v.list ∧ Room mem (1, 0) 4 ∧ Apart (0, 0) 4 (1, 0) 4 :=
  ⟨.block rfl, .block rfl rfl, Or.inl (by decide)⟩

theorem C56_vec4_abs {mem : Mem α} {vP destP : Ptr} {v : V4 α} (h_v : Holds mem vP v.list) (r_dest : Room mem destP 4) (s_v_dest : Apart vP 4 destP 4) :
    C.glm_vec4_abs.run mem [vP.val, destP.val] =
      some (none, writes mem [(destP, (Cglm.glm_vec4_abs v).list.map .f)]) :=
  C55_vec4_abs h_v r_dest (Or.inr s_v_dest)
example (v : V4 α) : let mem : Mem α := [⟨false, v.list.map .f⟩, ⟨true, List.replicate 4 .undef⟩]
    Holds mem (0, 0) v.list ∧ Room mem (1, 0) 4 ∧ Apart (0, 0) 4 (1, 0) 4 :=
  ⟨.block rfl, .block rfl rfl, Or.inl (by decide)⟩

theorem C56_vec4_fract {mem : Mem α} {vP destP : Ptr} {v : V4 α} (h_v : Holds mem vP v.list) (r_dest : Room mem destP 4) (s_v_dest : Apart vP 4 destP 4) :
    C.glm_vec4_fract.run mem [vP.val, destP.val] =
      some (none, writes mem [(destP, (Cglm.glm_vec4_fract v).list.map .f)]) :=
  C55_vec4_fract h_v r_dest (Or.inr s_v_dest)
example (v : V4 α) : let mem : Mem α := [⟨false, v.list.map .f⟩, ⟨true, List.replicate 4 .undef⟩]
    Holds mem (0, 0) v.list ∧ Room mem (1, 0) 4 ∧ Apart (0, 0) 4 (1, 0) 4 :=
  ⟨.block rfl, .block rfl rfl, Or.inl (by decide)⟩

theorem C56_vec4_floor {mem : Mem α} {vP destP : Ptr} {v : V4 α} (h_v : Holds mem vP v.list) (r_dest : Room mem destP 4) (s_v_dest : Apart vP 4 destP 4) :
    C.glm_vec4_floor.run mem [vP.val, destP.val] =
      some (none, writes mem [(destP, (Cglm.glm_vec4_floor v).list.map .f)]) :=
  C55_vec4_floor h_v r_dest (Or.inr s_v_dest)
example (v : V4 α) : let mem : Mem α := [⟨false, v.list.map .f⟩, ⟨true, List.replicate 4 .undef⟩]
    Holds mem (0, 0) v.list ∧ Room mem (1, 0) 4 ∧ Apart (0, 0) 4 (1, 0) 4 :=
  ⟨.block rfl, .block rfl rfl, Or.inl (by decide)⟩

theorem C56_vec4_mods {mem : Mem α} {vP destP : Ptr} {v : V4 α} (s : α) (h_v : Holds mem vP v.list) (r_dest : Room mem destP 4) (s_v_dest : Apart vP 4 destP 4) :
    C.glm_vec4_mods.run mem [vP.val, .f s, destP.val] =
      some (none, writes mem [(destP, (Cglm.glm_vec4_mods v s).list.map .f)]) :=
  C55_vec4_mods s h_v r_dest (Or.inr s_v_dest)
example (v : V4 α) : let mem : Mem α := [⟨false, v.list.map .f⟩, ⟨true, List.replicate 4 .undef⟩]
    Holds mem (0, 0) v.list ∧ Room mem (1, 0) 4 ∧ Apart (0, 0) 4 (1, 0) 4 :=
  ⟨.block rfl, .block rfl rfl, Or.inl (by decide)⟩

theorem C56_vec4_steps {mem : Mem α} {xP destP : Ptr} (edge : α) {x : V4 α} (h_x : Holds mem xP x.list) (r_dest : Room mem destP 4) (s_x_dest : Apart xP 4 destP 4) :
    C.glm_vec4_steps.run mem [.f edge, xP.val, destP.val] =
      some (none, writes mem [(destP, (Cglm.glm_vec4_steps edge x).list.map .f)]) :=
  C55_vec4_steps edge h_x r_dest (Or.inr s_x_dest)
example (x : V4 α) : let mem : Mem α := [⟨false, x.list.map .f⟩, ⟨true, List.replicate 4 .undef⟩]
    Holds mem (0, 0) x.list ∧ Room mem (1, 0) 4 ∧ Apart (0, 0) 4 (1, 0) 4 :=
  ⟨.block rfl, .block rfl rfl, Or.inl (by decide)⟩

theorem C56_vec4_stepr {mem : Mem α} {edgeP destP : Ptr} {edge : V4 α} (x : α) (h_edge : Holds mem edgeP edge.list) (r_dest : Room mem destP 4) (s_edge_dest : Apart edgeP 4 destP 4) :
    C.glm_vec4_stepr.run mem [edgeP.val, .f x, destP.val] =
      some (none, writes mem [(destP, (Cglm.glm_vec4_stepr edge x).list.map .f)]) :=
  C55_vec4_stepr x h_edge r_dest (Or.inr s_edge_dest)
example (edge : V4 α) : let mem : Mem α := [⟨false, edge.list.map .f⟩, ⟨true, List.replicate 4 .undef⟩]
    Holds mem (0, 0) edge.list ∧ Room mem (1, 0) 4 ∧ Apart (0, 0) 4 (1, 0) 4 :=
  ⟨.block rfl, .block rfl rfl, Or.inl (by decide)⟩

theorem C56_vec4_hadd {mem : Mem α} {vP : Ptr} {v : V4 α} (h_v : Holds mem vP v.list) :
    C.glm_vec4_hadd.run mem [vP.val] =
      some (some (.f (Cglm.glm_vec4_hadd v)), mem) := by
  exact transferL ((R.nil _).addR h_v.has .nil) (.p rfl .nil) (glm_vec4_hadd_run _) (DT.val_done _) rfl rfl
example (v : V4 α) : let mem : Mem α := [⟨false, v.list.map .f⟩]
    Holds mem (0, 0) v.list :=
  .block rfl

theorem C56_vec4_sqrt {mem : Mem α} {vP destP : Ptr} {v : V4 α} (h_v : Holds mem vP v.list) (r_dest : Room mem destP 4) (s_v_dest : Apart vP 4 destP 4) :
    C.glm_vec4_sqrt.run mem [vP.val, destP.val] =
      some (none, writes mem [(destP, (Cglm.glm_vec4_sqrt v).list.map .f)]) :=
  C55_vec4_sqrt h_v r_dest (Or.inr s_v_dest)
example (v : V4 α) : let mem : Mem α := [⟨false, v.list.map .f⟩, ⟨true, List.replicate 4 .undef⟩]
    Holds mem (0, 0) v.list ∧ Room mem (1, 0) 4 ∧ Apart (0, 0) 4 (1, 0) 4 :=
  ⟨.block rfl, .block rfl rfl, Or.inl (by decide)⟩

end Cglm

end C56Vec4Ext
