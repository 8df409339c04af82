import Verif.Model.Par
import Mathlib.Data.List.Forall2
import Mathlib.Logic.Relation
/-
Interleaved execution of programs with separate footprints.
-/
namespace QK.Prog
variable {α β γ : Type}

theorem run_bind (p : Prog α β) (f : β → Prog α γ) (m : Mem α) :
    (p >>= f).run m = p.run m >>= fun r => (f r.1).run r.2 := by
  show (p.bind f).run m = _
  induction p generalizing m with
  | ret b => rfl
  | rd l k ih =>
    simp only [Prog.bind, run]
    cases m l with
    | none => rfl
    | some v => exact ih v m
  | wr l v k ih =>
    simp only [Prog.bind, run]
    by_cases h : (m l).isSome
    · rw [if_pos h, if_pos h]; exact ih _
    · rw [if_neg h, if_neg h]; rfl
  | fail w => rfl

theorem run_bind_ok {p : Prog α β} {f : β → Prog α γ} {m m' : Mem α} {b : β} (h : p.run m = .ok (b, m')) :
    (p >>= f).run m = (f b).run m' := by
  rw [run_bind, h]; rfl

theorem run_pure (b : β) (m : Mem α) : (pure b : Prog α β).run m = .ok (b, m) := rfl

theorem run_read {l : Loc} {m : Mem α} {v : α} (h : m l = some v) : (read l).run m = .ok (v, m) := by
  unfold read run; rw [h]; rfl

theorem run_write {l : Loc} {m : Mem α} (v : α) (h : (m l).isSome) :
    (write l v).run m = .ok ((), Function.update m l (some v)) := by
  unfold write run; rw [if_pos h]; rfl

theorem run_ofRes {r : Res β} {b : β} (h : r = .ok b) (m : Mem α) : (ofRes r).run m = .ok (b, m) := by
  subst h; rfl

/-- Reads are in `R` or `W`, writes in `W`, whatever values are read. -/
def Within (R W : Loc → Prop) : Prog α β → Prop
  | ret _ => True
  | rd l k => (R l ∨ W l) ∧ ∀ v, (k v).Within R W
  | wr l _ k => W l ∧ k.Within R W
  | fail _ => True

theorem Within.bind {R W : Loc → Prop} {p : Prog α β} {f : β → Prog α γ} (h : p.Within R W)
    (hf : ∀ b, (f b).Within R W) : (p >>= f).Within R W := by
  show (p.bind f).Within R W
  induction p with
  | ret b => exact hf b
  | rd l k ih => exact ⟨h.1, fun v => ih v (h.2 v)⟩
  | wr l v k ih => exact ⟨h.1, ih h.2⟩
  | fail w => trivial

theorem Within.mono {R W R' W' : Loc → Prop} {p : Prog α β} (h : p.Within R W) (hR : ∀ l, R l → R' l)
    (hW : ∀ l, W l → W' l) : p.Within R' W' := by
  induction p with
  | ret b => trivial
  | rd l k ih => exact ⟨h.1.imp (hR l) (hW l), fun v => ih v (h.2 v)⟩
  | wr l v k ih => exact ⟨hW l h.1, ih h.2⟩
  | fail w => trivial

theorem within_ofRes (R W : Loc → Prop) (r : Res β) : (ofRes r : Prog α β).Within R W := by
  cases r <;> trivial
theorem within_read {R W : Loc → Prop} {l : Loc} (h : R l ∨ W l) : (read l : Prog α α).Within R W := ⟨h, fun _ => trivial⟩
theorem within_write {R W : Loc → Prop} {l : Loc} {v : α} (h : W l) : (write l v).Within R W := ⟨h, trivial⟩

theorem within_mapM {R W : Loc → Prop} {δ : Type} {f : δ → Prog α β} : ∀ {l : List δ}, (∀ x ∈ l, (f x).Within R W) →
    (l.mapM f).Within R W := by
  intro l
  induction l with
  | nil => intro _; rw [List.mapM_nil]; trivial
  | cons x l ih =>
    intro h
    rw [List.mapM_cons]
    refine (h x (List.mem_cons_self ..)).bind fun b => ?_
    exact (ih fun y hy => h y (List.mem_cons_of_mem _ hy)).bind fun bs => trivial

theorem within_forM {R W : Loc → Prop} {δ : Type} {f : δ → Prog α Unit} : ∀ {l : List δ}, (∀ x ∈ l, (f x).Within R W) →
    (l.forM f).Within R W := by
  intro l
  induction l with
  | nil => intro _; trivial
  | cons x l ih =>
    intro h
    show (f x >>= fun _ => l.forM f).Within R W
    exact (h x (List.mem_cons_self ..)).bind fun b => ih fun y hy => h y (List.mem_cons_of_mem _ hy)

/-- Nothing outside `W` changes; no location appears or disappears. -/
theorem run_frame {R W : Loc → Prop} {p : Prog α β} (h : p.Within R W) {m m' : Mem α} {b : β}
    (hr : p.run m = .ok (b, m')) : (∀ l, ¬ W l → m' l = m l) ∧ ∀ l, (m' l).isSome = (m l).isSome := by
  induction p generalizing m with
  | ret b => cases hr; exact ⟨fun _ _ => rfl, fun _ => rfl⟩
  | rd l k ih =>
    unfold run at hr
    split at hr
    · exact ih _ (h.2 _) hr
    · cases hr
  | wr l v k ih =>
    unfold run at hr
    split at hr
    · rename_i hl
      obtain ⟨h1, h2⟩ := ih h.2 hr
      refine ⟨fun l' hl' => ?_, fun l' => ?_⟩
      · rw [h1 l' hl', Function.update_of_ne]; rintro rfl; exact hl' h.1
      · rw [h2 l']
        by_cases e : l' = l
        · subst e; rw [Function.update_self, hl]; rfl
        · rw [Function.update_of_ne e]
    · cases hr
  | fail w => cases hr

open Classical in
/-- The result only depends on the locations of the footprint. -/
theorem run_local {R W : Loc → Prop} {p : Prog α β} (h : p.Within R W) {m m' m1 : Mem α} {b : β}
    (hr : p.run m = .ok (b, m')) (ha : ∀ l, R l ∨ W l → m1 l = m l) :
    p.run m1 = .ok (b, fun l => if W l then m' l else m1 l) := by
  induction p generalizing m m1 with
  | ret b =>
    cases hr
    unfold run
    congr 2; funext l
    by_cases hl : W l
    · rw [if_pos hl, ha l (.inr hl)]
    · rw [if_neg hl]
  | rd l k ih =>
    unfold run at hr ⊢
    rw [ha l h.1]
    cases hl : m l with
    | none => rw [hl] at hr; cases hr
    | some v => rw [hl] at hr; exact ih v (h.2 v) hr ha
  | wr l v k ih =>
    unfold run at hr ⊢
    rw [ha l (.inr h.1)]
    by_cases hs : (m l).isSome
    · rw [if_pos hs] at hr ⊢
      rw [ih h.2 hr (m1 := Function.update m1 l (some v))]
      · congr 2; funext l'
        by_cases hw : W l'
        · rw [if_pos hw, if_pos hw]
        · rw [if_neg hw, if_neg hw, Function.update_of_ne]; rintro rfl; exact hw h.1
      · intro l' hl'
        by_cases e : l' = l
        · subst e; simp
        · rw [Function.update_of_ne e, Function.update_of_ne e, ha l' hl']
    · rw [if_neg hs] at hr; cases hr
  | fail w => cases hr

/-- An access elsewhere can be done before or after. -/
theorem run_update {R W : Loc → Prop} {p : Prog α β} (h : p.Within R W) {l : Loc} (hR : ¬ R l) (hW : ¬ W l)
    {m m' : Mem α} {b : β} (v : Option α) (hr : p.run m = .ok (b, m')) :
    p.run (Function.update m l v) = .ok (b, Function.update m' l v) := by
  induction p generalizing m with
  | ret b => cases hr; rfl
  | rd l' k ih =>
    have e : l' ≠ l := by rintro rfl; exact h.1.elim hR hW
    unfold run at hr ⊢
    rw [Function.update_of_ne e]
    cases hl : m l' with
    | none => rw [hl] at hr; cases hr
    | some v => rw [hl] at hr; exact ih v (h.2 v) hr
  | wr l' v' k ih =>
    have e : l' ≠ l := by rintro rfl; exact hW h.1
    unfold run at hr ⊢
    rw [Function.update_of_ne e]
    by_cases hs : (m l').isSome
    · rw [if_pos hs] at hr ⊢
      rw [Function.update_comm (Ne.symm e)]
      exact ih h.2 hr
    · rw [if_neg hs] at hr; cases hr
  | fail w => cases hr

theorem runAll_nil (m : Mem α) : runAll [] m = .ok m := rfl
theorem runAll_cons (p : Prog α Unit) (ps : List (Prog α Unit)) (m : Mem α) :
    runAll (p :: ps) m = p.run m >>= fun r => runAll ps r.2 := by
  unfold runAll
  rw [List.foldlM_cons]
  cases p.run m <;> rfl
theorem runAll_append (ps qs : List (Prog α Unit)) (m : Mem α) :
    runAll (ps ++ qs) m = runAll ps m >>= runAll qs := by
  unfold runAll; rw [List.foldlM_append]

theorem forall₂_append_left {δ ε : Type} {r : δ → ε → Prop} : ∀ {a b : List δ} {c : List ε}, List.Forall₂ r (a ++ b) c →
    ∃ c1 c2, List.Forall₂ r a c1 ∧ List.Forall₂ r b c2 ∧ c = c1 ++ c2
  | [], _, c, h => ⟨[], c, .nil, h, rfl⟩
  | x :: a, b, c, h => by
    cases h with
    | cons h1 h2 =>
      obtain ⟨c1, c2, g1, g2, rfl⟩ := forall₂_append_left h2
      exact ⟨_, _, .cons h1 g1, g2, rfl⟩

/-- Footprint: locations that may be read, and that may be written. -/
abbrev Foot := (Loc → Prop) × (Loc → Prop)

/-- Neither writes what the other one accesses. -/
def Sep (f g : Foot) : Prop := (∀ l, f.2 l → ¬ g.1 l ∧ ¬ g.2 l) ∧ ∀ l, g.2 l → ¬ f.1 l ∧ ¬ f.2 l

theorem Sep.symm {f g : Foot} (h : Sep f g) : Sep g f := ⟨h.2, h.1⟩

theorem runAll_ok_of_mem {ps : List (Prog α Unit)} {m m' : Mem α} (h : runAll ps m = .ok m') {pre post : List (Prog α Unit)}
    {p : Prog α Unit} (e : ps = pre ++ p :: post) :
    ∃ ma mb, runAll pre m = .ok ma ∧ p.run ma = .ok ((), mb) ∧ runAll post mb = .ok m' := by
  subst e
  rw [runAll_append] at h
  obtain ⟨ma, h1, h2⟩ := Res.bind_eq_ok.1 h
  rw [runAll_cons] at h2
  obtain ⟨⟨u, mb⟩, h3, h4⟩ := Res.bind_eq_ok.1 h2
  exact ⟨ma, mb, h1, h3, h4⟩

theorem runAll_frame {fs : List Foot} {ps : List (Prog α Unit)} (h : List.Forall₂ (fun p f => p.Within f.1 f.2) ps fs)
    {m m' : Mem α} (hr : runAll ps m = .ok m') : (∀ l, (∀ f ∈ fs, ¬ f.2 l) → m' l = m l) ∧ ∀ l, (m' l).isSome = (m l).isSome := by
  induction h generalizing m with
  | nil => cases hr; exact ⟨fun _ _ => rfl, fun _ => rfl⟩
  | cons hp _ ih =>
    rw [runAll_cons] at hr
    obtain ⟨⟨u, mb⟩, h3, h4⟩ := Res.bind_eq_ok.1 hr
    obtain ⟨a1, a2⟩ := run_frame hp h3
    obtain ⟨b1, b2⟩ := ih h4
    refine ⟨fun l hl => ?_, fun l => (b2 l).trans (a2 l)⟩
    exact (b1 l (fun f hf => hl f (List.mem_cons_of_mem _ hf))).trans (a1 l (hl _ (List.mem_cons_self ..)))

theorem runAll_update {fs : List Foot} {ps : List (Prog α Unit)} (h : List.Forall₂ (fun p f => p.Within f.1 f.2) ps fs)
    {l : Loc} (hl : ∀ f ∈ fs, ¬ f.1 l ∧ ¬ f.2 l) {m m' : Mem α} (v : Option α) (hr : runAll ps m = .ok m') :
    runAll ps (Function.update m l v) = .ok (Function.update m' l v) := by
  induction h generalizing m with
  | nil => cases hr; rfl
  | cons hp _ ih =>
    rw [runAll_cons] at hr
    obtain ⟨⟨u, mb⟩, h3, h4⟩ := Res.bind_eq_ok.1 hr
    obtain ⟨h1, h2⟩ := hl _ (List.mem_cons_self ..)
    rw [runAll_cons, run_update hp h1 h2 v h3, Res.ok_bind]
    exact ih (fun f hf => hl f (List.mem_cons_of_mem _ hf)) h4

/-- One step of an interleaving keeps the sequential result of the remaining programs and their
footprints. -/
theorem Step.keeps {c c' : List (Prog α Unit) × Mem α} (hs : Step c c') {fs : List Foot}
    (h : List.Forall₂ (fun p f => p.Within f.1 f.2) c.1 fs) (hd : fs.Pairwise Sep) {m' : Mem α}
    (hr : runAll c.1 c.2 = .ok m') :
    List.Forall₂ (fun p f => p.Within f.1 f.2) c'.1 fs ∧ runAll c'.1 c'.2 = .ok m' := by
  cases hs with
  | @rd pre post l k m v hl =>
    simp only at *
    obtain ⟨f1, f2, g1, g2, rfl⟩ := forall₂_append_left h
    rw [List.forall₂_cons_left_iff] at g2
    obtain ⟨f, f3, hp, hpost, rfl⟩ := g2
    refine ⟨List.rel_append g1 (.cons (hp.2 v) hpost), ?_⟩
    obtain ⟨ma, mb, e1, e2, e3⟩ := runAll_ok_of_mem hr rfl
    have hma : ma l = m l := by
      refine (runAll_frame g1 e1).1 l ?_
      intro g hg hw
      have := (List.pairwise_append.1 hd).2.2 g hg f (List.mem_cons_self ..)
      exact hp.1.elim (this.1 l hw).1 (this.1 l hw).2
    rw [runAll_append, e1, Res.ok_bind, runAll_cons]
    unfold run at e2
    rw [hma, hl] at e2
    simp only at e2
    rw [e2, Res.ok_bind]; exact e3
  | @wr pre post l v k m hl =>
    simp only at *
    obtain ⟨f1, f2, g1, g2, rfl⟩ := forall₂_append_left h
    rw [List.forall₂_cons_left_iff] at g2
    obtain ⟨f, f3, hp, hpost, rfl⟩ := g2
    refine ⟨List.rel_append g1 (.cons hp.2 hpost), ?_⟩
    obtain ⟨ma, mb, e1, e2, e3⟩ := runAll_ok_of_mem hr rfl
    have hsep : ∀ g ∈ f1, ¬ g.1 l ∧ ¬ g.2 l := fun g hg =>
      ((List.pairwise_append.1 hd).2.2 g hg f (List.mem_cons_self ..)).2 l hp.1
    rw [runAll_append, runAll_update g1 hsep (some v) e1, Res.ok_bind, runAll_cons]
    have hma : (ma l).isSome := by rw [(runAll_frame g1 e1).2 l]; exact hl
    unfold run at e2
    rw [if_pos hma] at e2
    rw [e2, Res.ok_bind]; exact e3

/-- **Schedule independence.** Programs with separate footprints, whose sequential execution is defined:
in every state that an interleaving can reach there is no undefined behaviour and no data race, and when all
programs are finished the memory is the sequential result. -/
theorem interleave {fs : List Foot} {ps : List (Prog α Unit)} (h : List.Forall₂ (fun p f => p.Within f.1 f.2) ps fs)
    (hd : fs.Pairwise Sep) {m m' : Mem α} (hr : runAll ps m = .ok m') {ps' : List (Prog α Unit)} {m1 : Mem α}
    (hs : Relation.ReflTransGen Step (ps, m) (ps', m1)) :
    ¬ Bad ps' m1 ∧ ¬ Race ps' ∧ (Done ps' → m1 = m') ∧ (¬ Done ps' → ∃ c, Step (ps', m1) c) := by
  have key : List.Forall₂ (fun p f => p.Within f.1 f.2) ps' fs ∧ runAll ps' m1 = .ok m' := by
    have : ∀ c, Relation.ReflTransGen Step (ps, m) c →
        List.Forall₂ (fun p f => p.Within f.1 f.2) c.1 fs ∧ runAll c.1 c.2 = .ok m' := by
      intro c hc
      induction hc with
      | refl => exact ⟨h, hr⟩
      | tail _ hst ih => exact hst.keeps ih.1 hd ih.2
    exact this _ hs
  obtain ⟨hw, hr'⟩ := key
  have hbad : ¬ Bad ps' m1 := by
    rintro ⟨p, hp, hbad⟩
    obtain ⟨pre, post, rfl⟩ := List.append_of_mem hp
    obtain ⟨ma, mb, e1, e2, e3⟩ := runAll_ok_of_mem hr' rfl
    obtain ⟨f1, f2, g1, g2, rfl⟩ := forall₂_append_left hw
    have hex : ∀ l, m1 l = none → ma l = none := by
      intro l hl
      have := (runAll_frame g1 e1).2 l
      rw [hl] at this
      cases hm : ma l with
      | none => rfl
      | some v => rw [hm] at this; cases this
    rcases hbad with ⟨w, rfl⟩ | ⟨l, b, hn, hl⟩
    · cases e2
    · cases p with
      | ret b => cases hn
      | rd l' k =>
        cases hn
        unfold run at e2
        rw [hex _ hl] at e2; cases e2
      | wr l' v k =>
        cases hn
        unfold run at e2
        rw [hex _ hl] at e2; cases e2
      | fail w => cases hn
  refine ⟨hbad, ?_, ?_, ?_⟩
  · rintro ⟨i, j, p, q, l, a, b, hij, hi, hj, hp, hq, hab⟩
    have hget : ∀ (i : Nat) (p : Prog α Unit), ps'[i]? = some p → ∃ f, fs[i]? = some f ∧ p.Within f.1 f.2 := by
      intro i p hi
      obtain ⟨hlt, rfl⟩ := List.getElem?_eq_some_iff.1 hi
      have hlen := hw.length_eq
      exact ⟨_, List.getElem?_eq_getElem (by omega), (List.forall₂_iff_get.1 hw).2 i hlt (by omega)⟩
    obtain ⟨f, hf, wf⟩ := hget i p hi
    obtain ⟨g, hg, wg⟩ := hget j q hj
    have hsep : Sep f g := by
      obtain ⟨h1, rfl⟩ := List.getElem?_eq_some_iff.1 hf
      obtain ⟨h2, rfl⟩ := List.getElem?_eq_some_iff.1 hg
      rcases Nat.lt_or_gt_of_ne hij with e | e
      · exact List.pairwise_iff_getElem.1 hd i j h1 h2 e
      · exact (List.pairwise_iff_getElem.1 hd j i h2 h1 e).symm
    have acc : ∀ (p : Prog α Unit) (f : Foot) (a : Bool), p.Within f.1 f.2 → p.next = some (l, a) →
        (f.1 l ∨ f.2 l) ∧ (a = true → f.2 l) := by
      intro p f a hw hn
      cases p with
      | ret b => cases hn
      | rd l' k => cases hn; exact ⟨hw.1, fun e => by cases e⟩
      | wr l' v k => cases hn; exact ⟨.inr hw.1, fun _ => hw.1⟩
      | fail w => cases hn
    obtain ⟨a1, a2⟩ := acc p f a wf hp
    obtain ⟨b1, b2⟩ := acc q g b wg hq
    rcases hab with e | e
    · have := hsep.1 l (a2 e); exact b1.elim this.1 this.2
    · have := hsep.2 l (b2 e); exact a1.elim this.1 this.2
  · intro hdone
    have : ∀ (ps : List (Prog α Unit)), Done ps → ∀ m : Mem α, runAll ps m = .ok m := by
      intro ps
      induction ps with
      | nil => intro _ m; rfl
      | cons p ps ih =>
        intro hd m
        rw [runAll_cons, hd p (List.mem_cons_self ..)]
        exact ih (fun q hq => hd q (List.mem_cons_of_mem _ hq)) m
    rw [this ps' hdone m1] at hr'
    exact Res.ok.inj hr'
  · intro hnd
    have : ∃ p ∈ ps', p ≠ .ret () := by
      by_contra hc
      exact hnd fun p hp => by
        by_contra e; exact hc ⟨p, hp, e⟩
    obtain ⟨p, hp, hne⟩ := this
    obtain ⟨pre, post, rfl⟩ := List.append_of_mem hp
    cases p with
    | ret b => exact absurd rfl hne
    | rd l k =>
      cases hl : m1 l with
      | none => exact absurd ⟨_, hp, .inr ⟨l, false, rfl, hl⟩⟩ hbad
      | some v => exact ⟨_, .rd hl⟩
    | wr l v k =>
      cases hl : m1 l with
      | none => exact absurd ⟨_, hp, .inr ⟨l, true, rfl, hl⟩⟩ hbad
      | some w => exact ⟨_, .wr (by rw [hl]; rfl)⟩
    | fail w => exact absurd ⟨_, hp, .inl ⟨w, rfl⟩⟩ hbad

/-- `q` is what remains of `p` after one access. -/
inductive Child : Prog α Unit → Prog α Unit → Prop
  | rd (l : Loc) (k : α → Prog α Unit) (v : α) : Child (k v) (.rd l k)
  | wr (l : Loc) (v : α) (k : Prog α Unit) : Child k (.wr l v k)

/-- One program of the list makes a step, whatever the memory. -/
inductive Shrink : List (Prog α Unit) → List (Prog α Unit) → Prop
  | mk (pre post : List (Prog α Unit)) {p q : Prog α Unit} (h : Child q p) : Shrink (pre ++ q :: post) (pre ++ p :: post)

theorem shrink_acc (ps : List (Prog α Unit)) : Acc Shrink ps := by
  induction ps with
  | nil =>
    refine ⟨_, fun y hy => ?_⟩
    generalize hx : ([] : List (Prog α Unit)) = x at hy
    cases hy with
    | mk pre post h => simp at hx
  | cons p ps ih =>
    have hp : Acc Child p := by
      clear ih
      induction p with
      | ret b => exact ⟨_, fun y hy => by cases hy⟩
      | rd l k ih => exact ⟨_, fun y hy => by cases hy; exact ih _⟩
      | wr l v k ih => exact ⟨_, fun y hy => by cases hy; exact ih⟩
      | fail w => exact ⟨_, fun y hy => by cases hy⟩
    induction hp generalizing ps with
    | intro p _ ihp =>
      induction ih with
      | intro ps hacc ihps =>
        refine ⟨_, fun y hy => ?_⟩
        generalize hx : p :: ps = x at hy
        cases hy with
        | mk pre post h =>
          cases pre with
          | nil =>
            simp only [List.nil_append, List.cons.injEq] at hx
            obtain ⟨rfl, rfl⟩ := hx
            exact ihp _ h ps ⟨_, hacc⟩
          | cons a pre =>
            simp only [List.cons_append, List.cons.injEq] at hx
            obtain ⟨rfl, rfl⟩ := hx
            exact ihps _ (.mk pre post h)

/-- Every interleaving ends. -/
theorem step_acc (c : List (Prog α Unit) × Mem α) : Acc (fun x y => Step y x) c := by
  obtain ⟨ps, m⟩ := c
  have := shrink_acc ps
  induction this generalizing m with
  | intro ps _ ih =>
    refine ⟨_, fun y hy => ?_⟩
    cases hy with
    | @rd pre post l k _ v h => exact ih _ (.mk pre post (.rd l k v)) _
    | @wr pre post l v k _ h => exact ih _ (.mk pre post (.wr l v k)) _

/-- The sequential result of a family of programs with separate footprints: every program has the effect it has
on the initial memory. -/
theorem runAll_family {ι : Type} {P : ι → Prog α Unit} {R W : ι → Loc → Prop} {m : Mem α} {res : ι → Mem α} :
    ∀ {l : List ι}, (∀ i ∈ l, (P i).Within (R i) (W i)) → l.Pairwise (fun i j => Sep (R i, W i) (R j, W j)) →
    (∀ i ∈ l, (P i).run m = .ok ((), res i)) →
    ∃ m', runAll (l.map P) m = .ok m' ∧ (∀ i ∈ l, ∀ x, W i x → m' x = res i x) ∧
      ∀ x, (∀ i ∈ l, ¬ W i x) → m' x = m x := by
  classical
  intro l
  induction l generalizing m res with
  | nil => intro _ _ _; exact ⟨m, rfl, by simp, fun _ _ => rfl⟩
  | cons i l ih =>
    intro hw hd hr
    rw [List.pairwise_cons] at hd
    have hi := hr i (List.mem_cons_self ..)
    have hfr := run_frame (hw i (List.mem_cons_self ..)) hi
    obtain ⟨m', h1, h2, h3⟩ := ih (m := res i) (res := fun j x => if W j x then res j x else res i x)
      (fun j hj => hw j (List.mem_cons_of_mem _ hj)) hd.2 (fun j hj => by
        refine run_local (hw j (List.mem_cons_of_mem _ hj)) (hr j (List.mem_cons_of_mem _ hj)) ?_
        intro x hx
        refine hfr.1 x ?_
        intro hwx
        have := (hd.1 j hj).1 x hwx
        exact hx.elim this.1 this.2)
    refine ⟨m', ?_, ?_, ?_⟩
    · rw [List.map_cons, runAll_cons, hi, Res.ok_bind]; exact h1
    · intro j hj x hx
      rcases List.mem_cons.1 hj with rfl | hj
      · refine h3 x ?_
        intro k hk hwk
        exact ((hd.1 k hk).1 x hx).2 hwk
      · rw [h2 j hj x hx, if_pos hx]
    · intro x hx
      rw [h3 x (fun j hj => hx j (List.mem_cons_of_mem _ hj)), hfr.1 x (hx i (List.mem_cons_self ..))]

end QK.Prog
