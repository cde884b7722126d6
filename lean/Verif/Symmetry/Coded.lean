import Verif.Symmetry.Props
import Mathlib.LinearAlgebra.Matrix.Determinant.Basic

/-!
# A checkable criterion for the space groups

Helper for the database theorems.  Operations with entries -1, 0, 1 and translations in 24ths are
coded as natural numbers; `check` closes the coded generators under composition, and `check_sound`
shows what a successful check means for the operations themselves.
-/

namespace Verif.Symmetry

/-- An operation with translations in 24ths. -/
structure COp where
  (a b c d e f g h i x y z : ℤ)

namespace COp

def mul (p q : COp) : COp :=
  ⟨p.a*q.a+p.b*q.d+p.c*q.g, p.a*q.b+p.b*q.e+p.c*q.h, p.a*q.c+p.b*q.f+p.c*q.i,
   p.d*q.a+p.e*q.d+p.f*q.g, p.d*q.b+p.e*q.e+p.f*q.h, p.d*q.c+p.e*q.f+p.f*q.i,
   p.g*q.a+p.h*q.d+p.i*q.g, p.g*q.b+p.h*q.e+p.i*q.h, p.g*q.c+p.h*q.f+p.i*q.i,
   (p.a*q.x+p.b*q.y+p.c*q.z+p.x)%24, (p.d*q.x+p.e*q.y+p.f*q.z+p.y)%24,
   (p.g*q.x+p.h*q.y+p.i*q.z+p.z)%24⟩

noncomputable def eqv (p q : COp) : Bool :=
  Int.beq' p.x q.x && Int.beq' p.y q.y && Int.beq' p.z q.z && Int.beq' p.a q.a && Int.beq' p.b q.b &&
  Int.beq' p.c q.c && Int.beq' p.d q.d && Int.beq' p.e q.e && Int.beq' p.f q.f && Int.beq' p.g q.g &&
  Int.beq' p.h q.h && Int.beq' p.i q.i

theorem eq_of_eqv {p q : COp} (h : eqv p q = true) : p = q := by
  cases p; cases q
  simp only [eqv, Bool.and_eq_true, Int.beq'_eq] at h
  simp only [COp.mk.injEq]
  tauto

def enc (p : COp) : ℕ :=
  (p.a+1+3*(p.b+1)+9*(p.c+1)+27*(p.d+1)+81*(p.e+1)+243*(p.f+1)+729*(p.g+1)+2187*(p.h+1)+6561*(p.i+1)
   +19683*(p.x+24*(p.y+24*p.z))).toNat

def det (p : COp) : ℤ :=
  p.a*(p.e*p.i-p.f*p.h) - p.b*(p.d*p.i-p.f*p.g) + p.c*(p.d*p.h-p.e*p.g)

/-- The operation meant. -/
def toOp (p : COp) : Op where
  rot := ![![p.a, p.b, p.c], ![p.d, p.e, p.f], ![p.g, p.h, p.i]]
  trans := ![(p.x : ℚ) / 24, (p.y : ℚ) / 24, (p.z : ℚ) / 24]

theorem toOp_injective {p q : COp} (h : p.toOp = q.toOp) : p = q := by
  rw [Op.ext_iff'] at h
  obtain ⟨h1, h2⟩ := h
  have e00 := h1 0 0; have e01 := h1 0 1; have e02 := h1 0 2
  have e10 := h1 1 0; have e11 := h1 1 1; have e12 := h1 1 2
  have e20 := h1 2 0; have e21 := h1 2 1; have e22 := h1 2 2
  have t0 := h2 0; have t1 := h2 1; have t2 := h2 2
  simp [toOp, div_left_inj'] at e00 e01 e02 e10 e11 e12 e20 e21 e22 t0 t1 t2
  cases p; cases q
  simp_all

theorem fract_div24 (n : ℤ) : Int.fract ((n : ℚ) / 24) = ((n % 24 : ℤ) : ℚ) / 24 := by
  rw [Int.fract_eq_iff]
  have h1 := Int.emod_nonneg n (by norm_num : (24 : ℤ) ≠ 0)
  have h2 := Int.emod_lt_of_pos n (by norm_num : (0 : ℤ) < 24)
  have h1' : (0 : ℚ) ≤ ((n % 24 : ℤ) : ℚ) := by exact_mod_cast h1
  have h2' : ((n % 24 : ℤ) : ℚ) < 24 := by exact_mod_cast h2
  refine ⟨by positivity, by rw [div_lt_one (by norm_num)]; exact h2', n / 24, ?_⟩
  have h3 : (n : ℚ) = 24 * ((n / 24 : ℤ) : ℚ) + ((n % 24 : ℤ) : ℚ) := by
    exact_mod_cast (Int.mul_ediv_add_emod n 24).symm
  rw [div_sub_div_same]
  rw [h3]
  field_simp
  ring

theorem toOp_mul (p q : COp) : (p.mul q).toOp = comp p.toOp q.toOp := by
  rw [Op.ext_iff']
  constructor
  · intro i j
    fin_cases i <;> fin_cases j <;> simp [toOp, mul, comp, Fin.sum_univ_three]
  · intro i
    fin_cases i
    all_goals
      simp only [toOp, mul, comp, Fin.sum_univ_three, Fin.zero_eta, Fin.mk_one, Fin.reduceFinMk,
        Matrix.cons_val_zero, Matrix.cons_val_one, Matrix.cons_val]
      rw [← fract_div24]
      congr 1
      push_cast
      ring

theorem det_toOp (p : COp) : Matrix.det (Matrix.of p.toOp.rot) = p.det := by
  rw [Matrix.det_fin_three]
  simp [toOp, det]
  ring

end COp

def dec (n : ℕ) : COp :=
  ⟨(n%3:ℕ)-1, (n/3%3:ℕ)-1, (n/9%3:ℕ)-1, (n/27%3:ℕ)-1, (n/81%3:ℕ)-1, (n/243%3:ℕ)-1, (n/729%3:ℕ)-1,
    (n/2187%3:ℕ)-1,(n/6561%3:ℕ)-1, (n/19683%24:ℕ), (n/19683/24%24:ℕ), (n/19683/576%24:ℕ)⟩

def codeOp (o : Op) : COp :=
  ⟨o.rot 0 0, o.rot 0 1, o.rot 0 2, o.rot 1 0, o.rot 1 1, o.rot 1 2, o.rot 2 0, o.rot 2 1, o.rot 2 2,
   (o.trans 0 * 24).num, (o.trans 1 * 24).num, (o.trans 2 * 24).num⟩

/-- Evaluates a number before it is used. -/
def force {α : Type} (n : ℕ) (f : ℕ → α) : α := match n with
  | 0 => f 0
  | k + 1 => f (k + 1)

@[simp] theorem force_eq {α : Type} (n : ℕ) (f : ℕ → α) : force n f = f n := by cases n <;> rfl

def forceL {α : Type} : List ℕ → (List ℕ → α) → α
  | [], f => f []
  | x :: xs, f => force x fun y => forceL xs fun ys => f (y :: ys)

@[simp] theorem forceL_eq {α : Type} (l : List ℕ) (f : List ℕ → α) : forceL l f = f l := by
  induction l generalizing f with
  | nil => rfl
  | cons x xs ih => simp [forceL, ih]

/-- Membership, written with the recursors for the kernel. -/
noncomputable def memN (p : ℕ) (l : List ℕ) : Bool :=
  List.rec (motive := fun _ => Bool) false
    (fun q _ ih => Bool.rec (motive := fun _ => Bool) ih true (Nat.beq p q)) l

theorem memN_iff {p : ℕ} {l : List ℕ} : memN p l = true ↔ p ∈ l := by
  induction l with
  | nil => simp [memN]
  | cons q qs ih =>
    have : memN p (q :: qs) = (Nat.beq p q || memN p qs) := by
      cases h : Nat.beq p q <;> simp [memN, h]
    rw [this]
    simp [ih]

/-- Evaluates an integer before it is used. -/
def forceI {α : Type} (n : ℤ) (f : ℤ → α) : α := match n with
  | .ofNat k => force k fun k => f (.ofNat k)
  | .negSucc k => force k fun k => f (.negSucc k)

@[simp] theorem forceI_eq {α : Type} (n : ℤ) (f : ℤ → α) : forceI n f = f n := by
  cases n <;> simp [forceI]

/-- Evaluates an operation before it is used. -/
def COp.forced {α : Type} (p : COp) (k : COp → α) : α :=
  forceI p.a fun a => forceI p.b fun b => forceI p.c fun c => forceI p.d fun d => forceI p.e fun e =>
  forceI p.f fun f => forceI p.g fun g => forceI p.h fun h => forceI p.i fun i => forceI p.x fun x =>
  forceI p.y fun y => forceI p.z fun z => k ⟨a, b, c, d, e, f, g, h, i, x, y, z⟩

@[simp] theorem COp.forced_eq {α : Type} (p : COp) (k : COp → α) : p.forced k = k p := by
  simp [COp.forced]

def forcedL {α : Type} : List COp → (List COp → α) → α
  | [], f => f []
  | x :: xs, f => x.forced fun y => forcedL xs fun ys => f (y :: ys)

@[simp] theorem forcedL_eq {α : Type} (l : List COp) (f : List COp → α) : forcedL l f = f l := by
  induction l generalizing f with
  | nil => rfl
  | cons x xs ih => simp [forcedL, ih]

noncomputable def bfsIn (x : COp) :
    List COp → List ℕ → List ℕ → (List ℕ → List ℕ → Option (List ℕ)) → Option (List ℕ)
  | [], seen, todo, k => k seen todo
  | g :: gs, seen, todo, k =>
    (g.mul x).forced fun p =>
    force p.enc fun y =>
      bif (dec y).eqv p then
        bif memN y seen then bfsIn x gs seen todo k else bfsIn x gs (y :: seen) (y :: todo) k
      else none

noncomputable def bfs (gens : List COp) : ℕ → List ℕ → List ℕ → Option (List ℕ)
  | _, seen, [] => some seen
  | 0, _, _ => none
  | n + 1, seen, x :: xs => (dec x).forced fun c => bfsIn c gens seen xs (bfs gens n)

/-- The operation coded by a number. -/
def opOf (n : ℕ) : Op := (dec n).toOp

/-- What the search keeps true; `ex` is the element being processed. -/
structure BInv (gens : List COp) (seen todo : List ℕ) (ex : ℕ → Prop) : Prop where
  nodup : seen.Nodup
  code : ∀ n ∈ seen, (dec n).enc = n
  base : ∀ g ∈ gens, ∃ n ∈ seen, dec n = g
  gen : ∀ n ∈ seen, Generated (gens.map COp.toOp) (opOf n)
  sub : ∀ n ∈ todo, n ∈ seen
  done : ∀ n ∈ seen, n ∈ todo ∨ ex n ∨ ∀ g ∈ gens, ∃ m ∈ seen, opOf m = comp g.toOp (opOf n)

theorem bfsIn_spec {gens : List COp} {x : ℕ} {r : List ℕ} {k : List ℕ → List ℕ → Option (List ℕ)}
    (gs : List COp) : ∀ (seen todo : List ℕ), (∀ g ∈ gs, g ∈ gens) → x ∈ seen →
    BInv gens seen todo (· = x) → bfsIn (dec x) gs seen todo k = some r →
    ∃ seen' todo', k seen' todo' = some r ∧ BInv gens seen' todo' (· = x) ∧ (∀ n ∈ seen, n ∈ seen') ∧
      ∀ g ∈ gs, ∃ m ∈ seen', opOf m = comp g.toOp (opOf x) := by
  induction gs with
  | nil =>
    intro seen todo _ _ hi h
    exact ⟨seen, todo, h, hi, fun _ h => h, by simp⟩
  | cons g gs ih =>
    intro seen todo hgs hx hi h
    simp only [bfsIn, force_eq, COp.forced_eq, Bool.cond_eq_ite] at h
    split_ifs at h with h1 h2
    · have hp := COp.eq_of_eqv h1
      obtain ⟨s, t, e1, e2, e3, e4⟩ := ih seen todo (fun g' h' => hgs g' (List.mem_cons_of_mem _ h')) hx hi h
      refine ⟨s, t, e1, e2, e3, ?_⟩
      intro g' hg'
      rcases List.mem_cons.1 hg' with rfl | hg'
      · exact ⟨_, e3 _ (memN_iff.1 h2), by rw [opOf, hp, COp.toOp_mul]; rfl⟩
      · exact e4 g' hg'
    · have hp := COp.eq_of_eqv h1
      have hop : opOf (g.mul (dec x)).enc = comp g.toOp (opOf x) := by
        rw [opOf, hp, COp.toOp_mul]; rfl
      generalize hy : (g.mul (dec x)).enc = y at *
      have hn : y ∉ seen := fun hm => h2 (memN_iff.2 hm)
      have hi' : BInv gens (y :: seen) (y :: todo) (· = x) := by
        refine ⟨List.nodup_cons.2 ⟨hn, hi.nodup⟩, ?_, ?_, ?_, ?_, ?_⟩
        · intro n hn
          rcases List.mem_cons.1 hn with rfl | hn
          · rw [hp, hy]
          · exact hi.code n hn
        · intro g hg
          obtain ⟨n, hn, e⟩ := hi.base g hg
          exact ⟨n, List.mem_cons_of_mem _ hn, e⟩
        · intro n hn
          rcases List.mem_cons.1 hn with rfl | hn
          · rw [hop]
            exact .comp (.base (List.mem_map_of_mem (hgs g (List.mem_cons_self ..)))) (hi.gen x hx)
          · exact hi.gen n hn
        · intro n hn
          rcases List.mem_cons.1 hn with rfl | hn
          · exact List.mem_cons_self ..
          · exact List.mem_cons_of_mem _ (hi.sub n hn)
        · intro n hn
          rcases List.mem_cons.1 hn with rfl | hn
          · exact .inl (List.mem_cons_self ..)
          · rcases hi.done n hn with h | h | h
            · exact .inl (List.mem_cons_of_mem _ h)
            · exact .inr (.inl h)
            · refine .inr (.inr fun g hg => ?_)
              obtain ⟨m, hm, e⟩ := h g hg
              exact ⟨m, List.mem_cons_of_mem _ hm, e⟩
      obtain ⟨s, t, e1, e2, e3, e4⟩ := ih (y :: seen) (y :: todo)
        (fun g' h' => hgs g' (List.mem_cons_of_mem _ h')) (List.mem_cons_of_mem _ hx) hi' h
      refine ⟨s, t, e1, e2, fun n hn => e3 n (List.mem_cons_of_mem _ hn), ?_⟩
      intro g' hg'
      rcases List.mem_cons.1 hg' with rfl | hg'
      · exact ⟨y, e3 _ (List.mem_cons_self ..), hop⟩
      · exact e4 g' hg'

theorem bfs_spec {gens : List COp} {r : List ℕ} (n : ℕ) : ∀ (seen todo : List ℕ),
    BInv gens seen todo (fun _ => False) → bfs gens n seen todo = some r →
    BInv gens r [] (fun _ => False) := by
  induction n with
  | zero =>
    intro seen todo hi h
    cases todo with
    | nil => simp only [bfs, Option.some.injEq] at h; exact h ▸ hi
    | cons x xs => simp [bfs] at h
  | succ n ih =>
    intro seen todo hi h
    cases todo with
    | nil => simp only [bfs, Option.some.injEq] at h; exact h ▸ hi
    | cons x xs =>
      simp only [bfs, COp.forced_eq] at h
      have hx := hi.sub x (List.mem_cons_self ..)
      have hi' : BInv gens seen xs (· = x) := by
        refine ⟨hi.nodup, hi.code, hi.base, hi.gen, fun n hn => hi.sub n (List.mem_cons_of_mem _ hn), ?_⟩
        intro n hn
        rcases hi.done n hn with h | h | h
        · rcases List.mem_cons.1 h with h | h
          · exact .inr (.inl h)
          · exact .inl h
        · exact h.elim
        · exact .inr (.inr h)
      obtain ⟨s, t, e1, e2, e3, e4⟩ := bfsIn_spec gens seen xs (fun _ h => h) hx hi' h
      refine ih s t ⟨e2.nodup, e2.code, e2.base, e2.gen, e2.sub, ?_⟩ e1
      intro m hm
      rcases e2.done m hm with h | h | h
      · exact .inl h
      · subst h; exact .inr (.inr e4)
      · exact .inr (.inr h)

/-- Codes without repetition. -/
noncomputable def nodupN : List ℕ → Bool
  | [] => true
  | x :: xs => !memN x xs && nodupN xs

theorem nodup_of_nodupN {l : List ℕ} (h : nodupN l = true) : l.Nodup := by
  induction l with
  | nil => exact List.nodup_nil
  | cons x xs ih =>
    simp only [nodupN, Bool.and_eq_true, Bool.not_eq_true'] at h
    refine List.nodup_cons.2 ⟨fun hm => ?_, ih h.2⟩
    rw [memN_iff.2 hm] at h
    exact Bool.noConfusion h.1

/-- The check of one generator and its code. -/
def checkGen (g : Op) (n : ℕ) : Bool :=
  decide (opOf n = g) && Nat.beq (dec n).enc n && decide ((dec n).det = 1 ∨ (dec n).det = -1)

/-- The check of a list of generators and the number of operations. -/
noncomputable def checkGens (gs : List Op) (total : ℕ) : Bool :=
  forceL (gs.map fun g => (codeOp g).enc) fun l =>
    (gs.zip l).all (fun p => checkGen p.1 p.2) && nodupN l && decide (ident ∈ gs) &&
    forcedL (l.map dec) fun c => match bfs c 200 l l with
    | none => false
    | some r => Nat.beq r.length total

theorem map_opOf {gs : List Op} {l : List ℕ} (hl : gs.length = l.length)
    (h : ∀ p ∈ gs.zip l, checkGen p.1 p.2 = true) : gs = l.map opOf ∧
      ∀ n ∈ l, (dec n).enc = n ∧ ((dec n).det = 1 ∨ (dec n).det = -1) := by
  induction gs generalizing l with
  | nil =>
    cases l with
    | nil => simp
    | cons _ _ => simp at hl
  | cons g gs ih =>
    cases l with
    | nil => simp at hl
    | cons n l =>
      have h0 := h (g, n) (by simp)
      simp only [checkGen, Bool.and_eq_true, decide_eq_true_eq] at h0
      obtain ⟨h1, h2⟩ := ih (l := l) (by simpa using hl) (fun p hp => h p (by simp [hp]))
      refine ⟨by rw [List.map_cons, h0.1.1, ← h1], ?_⟩
      intro m hm
      rcases List.mem_cons.1 hm with rfl | hm
      · exact ⟨Nat.eq_of_beq_eq_true h0.1.2, h0.2⟩
      · exact h2 m hm

theorem opOf_grid (n : ℕ) : OnGrid 24 (opOf n) := by
  have key : ∀ k : ℕ, (∃ z : ℤ, (((k % 24 : ℕ) : ℤ) : ℚ) / 24 = z / (24 : ℕ)) ∧
      0 ≤ (((k % 24 : ℕ) : ℤ) : ℚ) / 24 ∧ (((k % 24 : ℕ) : ℤ) : ℚ) / 24 < 1 := by
    intro k
    have : ((k % 24 : ℕ) : ℚ) < 24 := by exact_mod_cast Nat.mod_lt k (by norm_num)
    refine ⟨⟨(k % 24 : ℕ), by push_cast; rfl⟩, by positivity, ?_⟩
    rw [div_lt_one (by norm_num)]
    exact_mod_cast this
  intro i
  fin_cases i
  · exact key _
  · exact key _
  · exact key _

theorem check_sound {gs : List Op} {total : ℕ} (h : checkGens gs total = true) :
    (∀ g ∈ gs, OnGrid 24 g) ∧ gs.Nodup ∧ ident ∈ gs ∧
    (∀ g ∈ gs, IsUnit (Matrix.det (Matrix.of g.rot))) ∧
    {x | Generated gs x}.Finite ∧ {x | Generated gs x}.ncard = total := by
  unfold checkGens at h
  rw [forceL_eq] at h
  generalize hl : (gs.map fun g => (codeOp g).enc) = l at h
  have hlen : gs.length = l.length := by rw [← hl, List.length_map]
  simp only [Bool.and_eq_true, List.all_eq_true, decide_eq_true_eq, forcedL_eq] at h
  obtain ⟨⟨⟨h1, h2⟩, h3⟩, h4⟩ := h
  obtain ⟨rfl, h6⟩ := map_opOf hlen (fun p hp => h1 p hp)
  have hinj : ∀ (s : List ℕ), (∀ n ∈ s, (dec n).enc = n) → ∀ x ∈ s, ∀ y ∈ s, opOf x = opOf y → x = y := by
    intro s hs x hx y hy hxy
    rw [← hs x hx, ← hs y hy, COp.toOp_injective hxy]
  have hnd : (l.map opOf).Nodup := (nodup_of_nodupN h2).map_on (hinj l fun n hn => (h6 n hn).1)
  have hgen : (∀ g ∈ l.map opOf, OnGrid 24 g) := by
    intro g hg
    obtain ⟨n, _, rfl⟩ := List.mem_map.1 hg
    exact opOf_grid n
  have hdet : ∀ g ∈ l.map opOf, IsUnit (Matrix.det (Matrix.of g.rot)) := by
    intro g hg
    obtain ⟨n, hn, rfl⟩ := List.mem_map.1 hg
    rw [opOf, COp.det_toOp, Int.isUnit_iff]
    exact (h6 n hn).2
  refine ⟨hgen, hnd, h3, hdet, ?_⟩
  split at h4
  · cases h4
  rename_i r hr
  have hmap : (l.map dec).map COp.toOp = l.map opOf := by rw [List.map_map]; rfl
  have hb := bfs_spec 200 l l ⟨nodup_of_nodupN h2, fun n hn => (h6 n hn).1, fun g hg => List.mem_map.1 hg,
    fun n hn => .base (by rw [hmap]; exact List.mem_map_of_mem hn), fun _ h => h, fun n hn => .inl hn⟩ hr
  have hset : {x | Generated (l.map opOf) x} = ((r.map opOf).toFinset : Set Op) := by
    ext x
    simp only [Set.mem_ofPred_eq, List.coe_toFinset]
    constructor
    · intro hx
      refine (generated_mem (ops := r.map opOf) ?_ ?_ hx).1
      · intro g hg
        obtain ⟨n, hn, rfl⟩ := List.mem_map.1 hg
        obtain ⟨m, hm, e⟩ := hb.base (dec n) (List.mem_map_of_mem hn)
        exact List.mem_map.2 ⟨m, hm, by rw [opOf, e]; rfl⟩
      · intro g hg y hy
        obtain ⟨n, hn, rfl⟩ := List.mem_map.1 hg
        obtain ⟨m, hm, rfl⟩ := List.mem_map.1 hy
        rcases hb.done m hm with h | h | h
        · cases h
        · exact h.elim
        · obtain ⟨k, hk, e⟩ := h (dec n) (List.mem_map_of_mem hn)
          exact List.mem_map.2 ⟨k, hk, e⟩
    · intro hx
      obtain ⟨m, hm, rfl⟩ := List.mem_map.1 hx
      have := hb.gen m hm
      rwa [hmap] at this
  rw [hset]
  refine ⟨Finset.finite_toSet _, ?_⟩
  rw [Set.ncard_coe_finset, List.toFinset_card_of_nodup (hb.nodup.map_on (hinj r hb.code)), List.length_map]
  exact Nat.eq_of_beq_eq_true h4

/-- The check of one entry of the database. -/
noncomputable def check (e : Entry) : Bool :=
  match getGeneratorFromStr e.generators with
  | .error _ => false
  | .ok gs => checkGens gs e.total

end Verif.Symmetry
