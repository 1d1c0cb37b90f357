import Verif.Schema
import Verif.Lemmas.ResolveEqs
import Verif.Lemmas.TypeText
/-!
# Lemmas about schema comparison and merging
-/
namespace Treeno

/-- No query anywhere in the relation. -/
def Key.plain : Key → Bool
  | .query => false
  | .aliased k _ _ => k.plain
  | .join l r _ _ _ => l.plain && r.plain
  | .sample k _ => k.plain
  | _ => true

theorem keyEq_sound : ∀ {a b : Key} {v : Bool}, keyEq a b = .ok v → (v = true ↔ a = b) := by
  intro a
  induction a with
  | query =>
    intro b v h
    cases b <;> cases h
    simp
  | table n s c =>
    intro b v h
    cases b <;> cases h <;> simp [and_assoc]
  | aliased k a cs ih =>
    intro b v h
    cases b <;> try (cases h <;> simp)
    obtain ⟨x, hx, h⟩ := bind_ok h
    cases h
    simp [ih hx, and_assoc]
  | join l r t n c ihl ihr =>
    intro b v h
    cases b <;> try (cases h <;> simp)
    obtain ⟨x, hx, h⟩ := bind_ok h
    cases x with
    | false =>
      cases h
      have := ihl hx
      simp at this
      simp [this]
    | true =>
      obtain ⟨y, hy, h⟩ := bind_ok h
      cases h
      have := ihl hx
      simp at this
      simp [this, ihr hy, and_assoc]
  | unnest n o =>
    intro b v h
    cases b <;> cases h <;> simp
  | lateral =>
    intro b v h
    cases b <;> cases h <;> simp
  | sample k t ih =>
    intro b v h
    cases b <;> try (cases h <;> simp)
    obtain ⟨x, hx, h⟩ := bind_ok h
    cases h
    simp [ih hx]

theorem keyEq_plain : ∀ {a b : Key}, a.plain = true → b.plain = true → ∃ v, keyEq a b = .ok v := by
  intro a
  induction a with
  | query => intro b h; cases h
  | table n s c => intro b _ h; cases b <;> first | cases h; done | exact ⟨_, rfl⟩
  | aliased k a cs ih =>
    intro b ha hb
    cases b <;> first | cases hb; done | exact ⟨_, rfl⟩ | skip
    simp only [Key.plain] at ha hb
    obtain ⟨v, hv⟩ := ih ha hb
    simp only [keyEq, hv]
    exact ⟨_, rfl⟩
  | join l r t n c ihl ihr =>
    intro b ha hb
    cases b <;> first | cases hb; done | exact ⟨_, rfl⟩ | skip
    simp only [Key.plain, Bool.and_eq_true] at ha hb
    obtain ⟨v, hv⟩ := ihl ha.1 hb.1
    obtain ⟨w, hw⟩ := ihr ha.2 hb.2
    simp only [keyEq, hv, hw]
    cases v <;> exact ⟨_, rfl⟩
  | unnest n o => intro b _ h; cases b <;> first | cases h; done | exact ⟨_, rfl⟩
  | lateral => intro b _ h; cases b <;> first | cases h; done | exact ⟨_, rfl⟩
  | sample k t ih =>
    intro b ha hb
    cases b <;> first | cases hb; done | exact ⟨_, rfl⟩ | skip
    simp only [Key.plain] at ha hb
    obtain ⟨v, hv⟩ := ih ha hb
    simp only [keyEq, hv]
    exact ⟨_, rfl⟩

theorem colEq_sound {f g : Col} {v : Bool} (h : colEq f g = .ok v) : v = true ↔ f = g := by
  obtain ⟨fn, fk, ft⟩ := f
  obtain ⟨gn, gk, gt⟩ := g
  unfold colEq at h
  split at h
  · rename_i hn
    obtain ⟨x, hx, h⟩ := bind_ok h
    cases h
    simp only at hn
    subst hn
    simp [keyEq_sound hx]
  · rename_i hn
    cases h
    simp only at hn
    simp [hn]

theorem colIn_sound {f : Col} : ∀ {gs : List Col} {v : Bool}, colIn f gs = .ok v → (v = true ↔ f ∈ gs)
  | [], v, h => by cases h; simp
  | g :: gs, v, h => by
    obtain ⟨x, hx, h⟩ := bind_ok h
    have hs := colEq_sound hx
    cases x with
    | true =>
      cases h
      simp at hs
      simp [hs]
    | false =>
      have h : colIn f gs = .ok v := h
      rw [colIn_sound h]
      have : f ≠ g := fun e => by simp [e] at hs
      simp [this]

end Treeno
