import Verif.Lemmas.Accepted
/-! A visitor that goes on with every node meets the whole tree. -/
namespace Treeno
open Spec

theorem depth_mem_list : ∀ {l : List Obj} {x}, x ∈ l → x.depth ≤ Obj.depthList l
  | y :: r, x, h => by
    show x.depth ≤ max y.depth (Obj.depthList r)
    rcases List.mem_cons.mp h with rfl | h
    · exact Nat.le_max_left _ _
    · exact Nat.le_trans (depth_mem_list h) (Nat.le_max_right _ _)
theorem depth_mem : ∀ {l : List (Str × Obj)} {x}, x ∈ l → x.2.depth ≤ Obj.depths l
  | (k, y) :: r, x, h => by
    show x.2.depth ≤ max y.depth (Obj.depths r)
    rcases List.mem_cons.mp h with rfl | h
    · exact Nat.le_max_left _ _
    · exact Nat.le_trans (depth_mem h) (Nat.le_max_right _ _)

theorem depth_held {v k : Obj} (h : k ∈ held v) : k.depth ≤ v.depth := by
  cases v with
  | list l => exact Nat.le_succ_of_le (depth_mem_list (List.mem_filter.mp h).1)
  | dict d =>
    obtain ⟨x, hx, rfl⟩ := List.mem_map.mp (List.mem_filter.mp h).1
    exact Nat.le_succ_of_le (depth_mem hx)
  | inst c as =>
    have h : k ∈ (if isNode (.inst c as) = true then [Obj.inst c as] else []) := h
    split at h
    · rw [List.mem_singleton.mp h]
      exact Nat.le_refl _
    · exact absurd h nofun
  | _ => exact absurd h nofun

theorem depth_child {o k : Obj} (h : k ∈ children o) : k.depth < o.depth := by
  cases o with
  | inst c as =>
    obtain ⟨x, hx, hk⟩ := List.mem_flatMap.mp h
    exact Nat.lt_succ_of_le (Nat.le_trans (depth_held hk) (depth_mem hx))
  | _ => exact absurd h nofun

theorem depth_pos (o : Obj) : 0 < o.depth := by
  cases o with
  | inst c as => exact Nat.succ_pos _
  | list l => exact Nat.succ_pos _
  | dict d => exact Nat.succ_pos _
  | _ => exact Nat.one_pos

theorem nodesTo_enough : ∀ (n m : Nat) (o : Obj), o.depth ≤ n → o.depth ≤ m → nodesTo n o = nodesTo m o
  | 0, _, o, h, _ => absurd (depth_pos o) (Nat.not_lt.mpr h)
  | _, 0, o, _, h => absurd (depth_pos o) (Nat.not_lt.mpr h)
  | n + 1, m + 1, o, h, h' => by
    show o :: ((children o).map (nodesTo n)).flatten = o :: ((children o).map (nodesTo m)).flatten
    have e : (children o).map (nodesTo n) = (children o).map (nodesTo m) := by
      apply List.map_congr_left
      intro k hk
      exact nodesTo_enough n m k (Nat.le_of_lt_succ (Nat.lt_of_lt_of_le (depth_child hk) h))
        (Nat.le_of_lt_succ (Nat.lt_of_lt_of_le (depth_child hk) h'))
    rw [e]

theorem mapM_perm (f : Obj → Except Err (List Obj)) (g : Obj → List Obj) : ∀ l : List Obj,
    (∀ x ∈ l, ∃ r, f x = .ok r ∧ r.Perm (g x)) → ∃ rs, l.mapM f = .ok rs ∧ rs.flatten.Perm (l.map g).flatten
  | [], _ => ⟨[], rfl, .refl _⟩
  | x :: l, h => by
    obtain ⟨r, hr, hp⟩ := h x (List.mem_cons_self)
    obtain ⟨rs, hrs, hps⟩ := mapM_perm f g l (fun y hy => h y (List.mem_cons_of_mem _ hy))
    refine ⟨r :: rs, ?_, ?_⟩
    · rw [List.mapM_cons, hr, hrs]; rfl
    · exact hp.append hps

theorem collect_perm : ∀ (n : Nat) (o : Obj), o.depth ≤ n → Fine o → (∀ x ∈ nodesTo n o, covered x = true) →
    ∃ l, o.collect n = .ok l ∧ l.Perm (nodesTo n o)
  | 0, o, h, _, _ => absurd (depth_pos o) (Nat.not_lt.mpr h)
  | n + 1, o, h, hg, hc => by
    obtain ⟨m, hm, rfl⟩ := hg
    obtain ⟨l, hv, hl⟩ := handed_node m hm (hc _ List.mem_cons_self)
    obtain ⟨rs, hr, hp⟩ := mapM_perm (Obj.collect n) (nodesTo n) l (by
      intro k hk
      have hk := hl.mem_iff.mp hk
      refine collect_perm n k (Nat.le_of_lt_succ (Nat.lt_of_lt_of_le (depth_child hk) h)) (gs_node m hm k hk) ?_
      intro x hx
      exact hc x (List.mem_cons_of_mem _ (List.mem_flatten.mpr ⟨_, List.mem_map.mpr ⟨k, hk, rfl⟩, hx⟩)))
    refine ⟨m.obj :: rs.flatten, ?_, .cons _ (hp.trans ((hl.map _).flatten))⟩
    show (do
      let l ← m.obj.visit
      let r ← l.mapM (Obj.collect n)
      Except.ok (m.obj :: r.flatten)) = _
    rw [hv]
    show (do
      let r ← l.mapM (Obj.collect n)
      Except.ok (m.obj :: r.flatten)) = _
    rw [hr]
    rfl

end Treeno
