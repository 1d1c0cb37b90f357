import Verif.Spec.Display
import Verif.Lemmas.TreeOk
/-! # Every node is shown -/
namespace Treeno
open Spec

theorem occurs_trans {a b c : PTree} (h : Occurs a b) (k : Occurs b c) : Occurs a c := by
  induction k with
  | here => exact h
  | inside hk _ ih => exact .inside hk ih

theorem dictsOk_mem : ∀ {l : List Obj} {o : Obj}, Obj.DictsOkList l → o ∈ l → o.DictsOk
  | x :: r, o, h, hm => by
    rcases List.mem_cons.1 hm with rfl | hm
    · exact h.1
    · exact dictsOk_mem h.2 hm
theorem trees_mem : ∀ {l : List Obj} {o : Obj}, o ∈ l → o.tree ∈ Obj.trees l
  | x :: r, o, hm => by
    rcases List.mem_cons.1 hm with rfl | hm
    · exact List.mem_cons_self
    · exact List.mem_cons_of_mem _ (trees_mem hm)
theorem dictsOk_memD : ∀ {l : List (Str × Obj)} {p : Str × Obj}, Obj.DictsOkDict l → p ∈ l →
    p.2.tree.isNode = true ∧ p.2.tree.label = c% "Window" ∧ p.2.DictsOk
  | (_, _) :: r, o, h, hm => by
    rcases List.mem_cons.1 hm with rfl | hm
    · exact h.1
    · exact dictsOk_memD h.2 hm
theorem dictTrees_mem : ∀ {l : List (Str × Obj)} {p : Str × Obj}, p ∈ l → PTree.node p.1 p.2.tree.kids ∈ Obj.dictTrees l
  | (_, _) :: r, o, hm => by
    rcases List.mem_cons.1 hm with rfl | hm
    · exact List.mem_cons_self
    · exact List.mem_cons_of_mem _ (dictTrees_mem hm)
theorem dictsOk_memA : ∀ {l : List (Str × Obj)} {p : Str × Obj}, Obj.DictsOkAttrs l → p ∈ l →
    (hiddenKey p.1 = false ∨ held p.2 = []) ∧ p.2.DictsOk
  | (_, _) :: r, o, h, hm => by
    rcases List.mem_cons.1 hm with rfl | hm
    · exact h.1
    · exact dictsOk_memA h.2 hm
theorem attrTrees_mem : ∀ {l : List (Str × Obj)} {p : Str × Obj}, p ∈ l → shouldSkip p.1 p.2 = false →
    PTree.node p.1 [p.2.tree] ∈ Obj.attrTrees l
  | (k, v) :: r, o, hm, hs => by
    show _ ∈ (if shouldSkip k v then Obj.attrTrees r else .node k [v.tree] :: Obj.attrTrees r)
    rcases List.mem_cons.1 hm with rfl | hm
    · rw [if_neg (by rw [hs]; exact Bool.false_ne_true)]; exact List.mem_cons_self
    · split
      · exact attrTrees_mem hm hs
      · exact List.mem_cons_of_mem _ (attrTrees_mem hm hs)

theorem held_unskipped {k : Str} {v : Obj} (hk : hiddenKey k = false) (h : held v ≠ []) : shouldSkip k v = false := by
  unfold shouldSkip
  rw [hk, Bool.false_or]
  cases v with
  | none => exact absurd rfl h
  | enum c n => exact absurd rfl h
  | list l => cases l with
    | nil => exact absurd rfl h
    | cons => rfl
  | dict l => cases l with
    | nil => exact absurd rfl h
    | cons => rfl
  | _ => rfl

/-- A child is shown below its parent. -/
theorem child_shown {o ch : Obj} (ho : isNode o = true) (hd : o.DictsOk) (h : ch ∈ children o) :
    isNode ch = true ∧ ch.DictsOk ∧
      (Occurs ch.tree o.tree ∨ ch.tree.isNode = true ∧ ch.tree.label = c% "Window" ∧ ∃ k, Occurs (.node k ch.tree.kids) o.tree) := by
  cases o with
  | inst c as =>
    have hc : c ≠ .dataType := by rintro rfl; exact Bool.noConfusion ho
    have hd : Obj.DictsOkAttrs as := hd.resolve_left hc
    rw [tree_inst hc]
    obtain ⟨p, hp, hch⟩ := List.mem_flatMap.1 h
    obtain ⟨h1, h2⟩ := dictsOk_memA hd hp
    have hne : held p.2 ≠ [] := List.ne_nil_of_mem hch
    have hmem := attrTrees_mem hp (held_unskipped (h1.resolve_right hne) hne)
    have inn : ∀ t, Occurs t p.2.tree → Occurs t (.node c.name (Obj.attrTrees as)) :=
      fun t ht => .inside hmem (.inside List.mem_cons_self ht)
    revert inn hch h2
    generalize p.2 = v
    intro hch h2 inn
    cases v with
    | list l =>
      obtain ⟨hm, hn⟩ := List.mem_filter.1 hch
      exact ⟨hn, dictsOk_mem h2 hm, .inl (inn _ (.inside (trees_mem hm) .here))⟩
    | dict l =>
      obtain ⟨hm, hn⟩ := List.mem_filter.1 hch
      obtain ⟨q, hq, rfl⟩ := List.mem_map.1 hm
      obtain ⟨g1, g2, g3⟩ := dictsOk_memD h2 hq
      exact ⟨hn, g3, .inr ⟨g1, g2, q.1, inn _ (.inside (dictTrees_mem hq) .here)⟩⟩
    | inst c' as' =>
      have hch : ch ∈ (if isNode (.inst c' as') then [Obj.inst c' as'] else []) := hch
      split at hch
      · rename_i hi
        rw [List.mem_singleton] at hch
        subst hch
        exact ⟨hi, h2, .inl (inn _ .here)⟩
      · exact nomatch hch
    | none => exact nomatch hch
    | scalar _ => exact nomatch hch
    | enum _ _ => exact nomatch hch
    | rel _ => exact nomatch hch
  | _ => exact nomatch ho

theorem node_shown : ∀ (n : Nat) (o : Obj), isNode o = true → o.DictsOk → ∀ c as, .inst c as ∈ nodesTo n o → NodeShown c as o.tree
  | 0, _, _, _, _, _, h => nomatch h
  | n + 1, o, ho, hd, c, as, h => by
    rcases List.mem_cons.1 h with rfl | h
    · have hc : c ≠ .dataType := by rintro rfl; exact Bool.noConfusion ho
      refine ⟨c.name, Obj.attrTrees as, ?_, ?_, .inl rfl⟩
      · rw [treeify_tree _ hd, tree_inst hc]
      · rw [tree_inst hc]; exact .here
    · obtain ⟨l, hl, hm⟩ := List.mem_flatten.1 h
      obtain ⟨ch, hch, rfl⟩ := List.mem_map.1 hl
      obtain ⟨h1, h2, h3⟩ := child_shown ho hd hch
      obtain ⟨l, ks, g1, g2, g3⟩ := node_shown n ch h1 h2 c as hm
      rcases h3 with h3 | ⟨k0, k1, k, k2⟩
      · exact ⟨l, ks, g1, occurs_trans g2 h3, g3⟩
      · cases g2' : ch.tree with
        | leaf s => rw [g2'] at k0; exact nomatch k0
        | node l' ks' =>
          rw [g2'] at g2 k1 k2
          cases g2 with
          | here =>
            refine ⟨k, ks, g1, k2, .inr ?_⟩
            rcases g3 with g3 | g3
            · exact Cls_name_inj (g3.symm.trans k1)
            · exact g3
          | inside hk hocc => exact ⟨l, ks, g1, occurs_trans (.inside hk hocc) k2, g3⟩

end Treeno
