import Verif.Dilithium.LinkedLemmas
import Verif.Dilithium.Refine
import Verif.Dilithium.SampleTotal
import Verif.Dilithium.Norm
import Verif.Keccak.Eval

/-!
# Running the model in the kernel

Key generation and signing on given coins, from data that can be checked by evaluation: polynomials are lists, products are checked at the 256 evaluation
points with an evaluation tree, digests with the model of fips202.c.  Used for `Verif/Props/Kat.lean`.
-/

namespace Verif.Dilithium.Eval
open Verif.Dilithium

/-! ## Lists from numbers -/

/-- `k` integers of 24 bits with offset `2^23`. -/
def unp : Nat → Nat → List Int
  | 0, _ => []
  | k + 1, n => (((Nat.mod n 16777216 : Nat) : Int) - 8388608) :: unp k (Nat.div n 16777216)

export Verif.Keccak.Eval (unb unb_len)

theorem unp_len (k n : Nat) : (unp k n).length = k := by
  induction k generalizing n with
  | zero => rfl
  | succ k ih => rw [unp, List.length_cons, ih]

/-- The polynomial with these coefficients. -/
def pl (l : List Int) : Poly := fun i => l.getD i.1 0
/-- The vector. -/
def vl (v : Fin 4 → List Int) : Vec := fun k => pl (v k)

theorem polyOfList_eq (C : CSem) (l : List Int) (h : l.length = 256) : polyOfList C l = pl l := by
  funext i
  unfold polyOfList pl
  rw [List.getD_eq_getElem _ _ (by omega), List.getD_eq_getElem _ _ (by omega)]

theorem pl_mem (l : List Int) (h : l.length = 256) (i : Fin 256) : pl l i ∈ l := by
  unfold pl
  rw [List.getD_eq_getElem _ _ (by omega)]
  exact List.getElem_mem _

theorem pl_ofFn (p : Poly) (l : List Int) (h : List.ofFn p = l) : p = pl l := by
  funext i
  subst h
  unfold pl
  rw [List.getD_eq_getElem _ _ (by rw [List.length_ofFn]; exact i.2), List.getElem_ofFn]

theorem pl_zipWith (f : Int → Int → Int) (a b : List Int) (ha : a.length = 256) (hb : b.length = 256) (i : Fin 256) :
    pl (List.zipWith f a b) i = f (pl a i) (pl b i) := by
  unfold pl
  rw [List.getD_eq_getElem _ _ (by simp [ha, hb]), List.getD_eq_getElem _ _ (by omega), List.getD_eq_getElem _ _ (by omega), List.getElem_zipWith]

/-! ## Values at the evaluation points -/

/-- Residues. -/
def rsd (l : List Int) : List Nat := l.map fun x => (x % 8380417).toNat

/-- The 256 constants of the evaluation tree, 24 bits each. -/
def zT : Nat := 15387822315553244864101526125332354819104830944898329536452970692128534936621661618320125543195560533736574668970373771580138462603067776998670563830101218049974762088268864956033233106844585650537824020552376936145012480413576216901748458438133896322652537801200249976789940638346492248140441250414293988761909258862357117143181135222404155842231250933650813952997672120384338850385782317870346529657531690885027710528077230942865286686123936600487380426765841264025256314543450466591245765635766252374147033488976806901357934792359115100490250110428530222748828645443551426344850743433501614043502167086245540137281102350536592625397500695949993290246489514039961471246813527925487120368579307366672926760953910862700363355561246234050507448951690744031604490819489058204918856390583813215949938332684389946949463246380579054069971875213489463615007850791219020429172790993822173901678243353223082720343245255263303176423466775868259697747463785095168573420845952305589369988187912196073476040132377906634342785572327889455371994169246329876330106774677842578766754958837170806012549746344490849547789403731851944735450694512173208464651866644178399201576155507458608083056298539481416023206586946393647687085842184006567030617699863003204593640898371675763682536196376131772896816642401535309364827404188990270924843908496170349368406996244669546583138267433221771623364943411653851041908634189017727991955152494401284174310444687136416169427677490087865024701836209807755827771081331181943868443650803190489988542177891290470268929890287062916958735645391250529439465453412502338645106216199583358540325683261452750383787946722571861613971310985173644616867901916999303876792787725947664864879658660548256144090760451471261449154407330875500050838939089312208222007031415816666067940320154661063939753445070502664609022158948148003949777648615425

/-- Constant `k`. -/
def zN (k : Nat) : Nat := Nat.mod (Nat.shiftRight zT (Nat.mul 24 k)) 16777216

/-- `a + z·b` modulo `q`. -/
def bf (z : Nat) : List Nat → List Nat → List Nat
  | a :: as, b :: bs => Nat.mod (Nat.add a (Nat.mul z b)) 8380417 :: bf z as bs
  | _, _ => []

/-- The values of a polynomial with `2^d` coefficients at the points below node `k` of the evaluation tree. -/
def nt : Nat → Nat → List Nat → List Nat
  | 0, _, l => l
  | d + 1, k, l => nt d (Nat.mul 2 k) (bf (zN k) (l.take (2 ^ d)) (l.drop (2 ^ d))) ++
      nt d (Nat.succ (Nat.mul 2 k)) (bf (Nat.sub 8380417 (zN k)) (l.take (2 ^ d)) (l.drop (2 ^ d)))

/-- The value of a list of coefficients at a point. -/
def evL (r : F) : List Nat → F
  | [] => 0
  | a :: as => (a : F) + r * evL r as

theorem evL_append (r : F) (a b : List Nat) : evL r (a ++ b) = evL r a + r ^ a.length * evL r b := by
  induction a with
  | nil => simp [evL]
  | cons x a ih => rw [List.cons_append, evL, evL, ih, List.length_cons, pow_succ]; ring

theorem castq (x : Nat) : ((x % 8380417 : Nat) : F) = (x : F) := ZMod.natCast_mod _ _

theorem bf_len (z : Nat) (a b : List Nat) (h : a.length = b.length) : (bf z a b).length = a.length := by
  induction a generalizing b with
  | nil => simp [bf]
  | cons x a ih =>
    cases b with
    | nil => simp at h
    | cons y b => rw [bf, List.length_cons, ih b (by simpa using h), List.length_cons]

theorem evL_bf (r : F) (z : Nat) (a b : List Nat) (h : a.length = b.length) : evL r (bf z a b) = evL r a + (z : F) * evL r b := by
  induction a generalizing b with
  | nil =>
    cases b with
    | nil => simp [bf, evL]
    | cons y b => simp at h
  | cons x a ih =>
    cases b with
    | nil => simp at h
    | cons y b =>
      rw [bf, evL, ih b (by simpa using h), evL, evL]
      rw [show Nat.mod (Nat.add x (Nat.mul z y)) 8380417 = (x + z * y) % 8380417 from rfl, castq]
      push_cast
      ring

set_option maxRecDepth 100000 in
theorem zN_table : ∀ k < 256, k ≠ 0 → ((zN k : Nat) : Int) = (zetas.getD k 0 * 8265825) % 8380417 := by decide +kernel

theorem zN_cast (k : Nat) (h : k < 256) (h0 : k ≠ 0) : ((zN k : Nat) : F) = Z k := by
  have := zN_table k h h0
  unfold Z Rinv
  rw [← Int.cast_mul, ← Int.cast_natCast, this]
  apply cast_eq_of_dvd
  omega

theorem zN_lt (k : Nat) (h : k < 256) (h0 : k ≠ 0) : zN k < 8380417 := by
  have := zN_table k h h0
  omega

theorem nt_len (d k : Nat) (l : List Nat) (h : l.length = 2 ^ d) : (nt d k l).length = 2 ^ d := by
  induction d generalizing k l with
  | zero => exact h
  | succ d ih =>
    have e1 : (l.take (2 ^ d)).length = 2 ^ d := by rw [List.length_take, h, pow_succ]; omega
    have e2 : (l.drop (2 ^ d)).length = 2 ^ d := by rw [List.length_drop, h, pow_succ]; omega
    rw [nt, List.length_append, ih _ _ (by rw [bf_len _ _ _ (e1.trans e2.symm), e1]), ih _ _ (by rw [bf_len _ _ _ (e1.trans e2.symm), e1]), pow_succ]
    omega

theorem rho_sq (n : Nat) (h : 2 ≤ n) (h2 : n < 512) : rho n ^ 2 = rho (n / 2) := by
  have hz := Z_sq (n / 2) (by omega) (by omega)
  rw [← hz]
  conv_lhs => rw [rho]
  rw [if_neg (by omega)]
  split
  · rfl
  · ring

theorem rho_pow2 (j n : Nat) (h : 2 ^ j ≤ n) (h2 : n < 512) : rho n ^ (2 ^ j) = rho (n / 2 ^ j) := by
  induction j generalizing n with
  | zero => simp
  | succ j ih =>
    rw [pow_succ] at h
    have : 1 ≤ 2 ^ j := Nat.one_le_two_pow
    rw [pow_succ, mul_comm (2 ^ j) 2, pow_mul, rho_sq n (by omega) h2, ih (n / 2) (by omega) (by omega), Nat.div_div_eq_div_mul]

theorem rho_even (k : Nat) (hk : 1 ≤ k) : rho (2 * k) = Z k := by
  rw [rho, if_neg (by omega), if_pos (by omega), show 2 * k / 2 = k by omega]

theorem rho_odd (k : Nat) (hk : 1 ≤ k) : rho (2 * k + 1) = -Z k := by
  rw [rho, if_neg (by omega), if_neg (by omega), show (2 * k + 1) / 2 = k by omega]

theorem mul_add_div {a b c : Nat} (h : c < b) : (a * b + c) / b = a := by
  rw [Nat.add_comm, Nat.mul_comm, Nat.add_mul_div_left _ _ (by omega), Nat.div_eq_of_lt h, Nat.zero_add]

theorem nt_spec (d k : Nat) (l : List Nat) (h : l.length = 2 ^ d) (hk : 1 ≤ k) (hd : (k + 1) * 2 ^ d ≤ 512) (i : Nat) (hi : i < 2 ^ d) :
    (((nt d k l).getD i 0 : Nat) : F) = evL (rho (k * 2 ^ d + i)) l := by
  induction d generalizing k l i with
  | zero =>
    have : i = 0 := by simpa using hi
    subst this
    cases l with
    | nil => simp at h
    | cons x l =>
      cases l with
      | nil => simp [nt, evL]
      | cons y l => simp at h
  | succ d ih =>
    have e1 : (l.take (2 ^ d)).length = 2 ^ d := by rw [List.length_take, h, pow_succ]; omega
    have e2 : (l.drop (2 ^ d)).length = 2 ^ d := by rw [List.length_drop, h, pow_succ]; omega
    have e12 := e1.trans e2.symm
    have hp : 1 ≤ 2 ^ d := Nat.one_le_two_pow
    have hps : 2 ^ (d + 1) = 2 * 2 ^ d := by rw [pow_succ]; omega
    have hsplit : ∀ r : F, evL r l = evL r (l.take (2 ^ d)) + r ^ 2 ^ d * evL r (l.drop (2 ^ d)) := fun r => by
      conv_lhs => rw [← List.take_append_drop (2 ^ d) l]
      rw [evL_append, e1]
    rw [hps] at hd hi ⊢
    have hk2 : k < 256 := by
      by_contra hc
      have : 257 * 2 ≤ (k + 1) * (2 * 2 ^ d) := Nat.mul_le_mul (by omega) (by omega)
      omega
    have ha : (2 * k + 1) * 2 ^ d ≤ 512 := by
      refine le_trans ?_ hd
      rw [← Nat.mul_assoc]
      exact Nat.mul_le_mul_right _ (by omega)
    have hb : (2 * k + 1 + 1) * 2 ^ d ≤ 512 := by
      refine le_trans ?_ hd
      rw [← Nat.mul_assoc]
      exact Nat.mul_le_mul_right _ (by omega)
    have el : (nt d (Nat.mul 2 k) (bf (zN k) (l.take (2 ^ d)) (l.drop (2 ^ d)))).length = 2 ^ d := nt_len _ _ _ (by rw [bf_len _ _ _ e12, e1])
    have hx : k * (2 * 2 ^ d) = 2 * k * 2 ^ d := by rw [Nat.mul_left_comm, Nat.mul_assoc]
    rw [nt]
    by_cases hlt : i < 2 ^ d
    · rw [List.getD_append _ _ _ _ (by omega), ih (Nat.mul 2 k) _ (by rw [bf_len _ _ _ e12, e1]) (by show 1 ≤ 2 * k; omega) ha i hlt,
        evL_bf _ _ _ _ e12, hsplit, zN_cast k hk2 (by omega)]
      have hr : rho (Nat.mul 2 k * 2 ^ d + i) ^ 2 ^ d = Z k := by
        have hn : Nat.mul 2 k * 2 ^ d + i < 512 := by
          have : Nat.mul 2 k * 2 ^ d + 2 ^ d ≤ 512 := by rw [← Nat.succ_mul]; exact ha
          omega
        rw [rho_pow2 d _ (by have : 1 * 2 ^ d ≤ Nat.mul 2 k * 2 ^ d := Nat.mul_le_mul_right _ (by show 1 ≤ 2 * k; omega)
                             omega) hn, mul_add_div hlt, show Nat.mul 2 k = 2 * k from rfl, rho_even k hk]
      rw [hx, show 2 * k * 2 ^ d + i = Nat.mul 2 k * 2 ^ d + i from rfl, hr]
    · obtain ⟨j, rfl⟩ : ∃ j, i = 2 ^ d + j := ⟨i - 2 ^ d, by omega⟩
      rw [List.getD_append_right _ _ _ _ (by omega), el, Nat.add_sub_cancel_left,
        ih (Nat.succ (Nat.mul 2 k)) _ (by rw [bf_len _ _ _ e12, e1]) (by show 1 ≤ 2 * k + 1; omega) hb j (by omega),
        evL_bf _ _ _ _ e12, hsplit]
      have hc : ((Nat.sub 8380417 (zN k) : Nat) : F) = -Z k := by
        rw [show Nat.sub 8380417 (zN k) = 8380417 - zN k from rfl, Nat.cast_sub (by have := zN_lt k hk2 (by omega); omega), zN_cast k hk2 (by omega)]
        rw [show ((8380417 : Nat) : F) = 0 from ZMod.natCast_self _, zero_sub]
      have hr : rho (Nat.succ (Nat.mul 2 k) * 2 ^ d + j) ^ 2 ^ d = -Z k := by
        have hn : Nat.succ (Nat.mul 2 k) * 2 ^ d + j < 512 := by
          have : Nat.succ (Nat.mul 2 k) * 2 ^ d + 2 ^ d ≤ 512 := by rw [← Nat.succ_mul]; exact hb
          omega
        rw [rho_pow2 d _ (by have : 1 * 2 ^ d ≤ Nat.succ (Nat.mul 2 k) * 2 ^ d := Nat.mul_le_mul_right _ (by show 1 ≤ 2 * k + 1; omega)
                             omega) hn, mul_add_div (by omega), show Nat.succ (Nat.mul 2 k) = 2 * k + 1 from rfl, rho_odd k hk]
      have hy : k * (2 * 2 ^ d) + (2 ^ d + j) = Nat.succ (Nat.mul 2 k) * 2 ^ d + j := by
        have h3 : (2 * k + 1) * 2 ^ d = 2 * k * 2 ^ d + 2 ^ d := Nat.succ_mul _ _
        show k * (2 * 2 ^ d) + (2 ^ d + j) = (2 * k + 1) * 2 ^ d + j
        rw [hx, h3, Nat.add_assoc]
      rw [hy, hr, hc]

/-- The values of a polynomial at the 256 points. -/
def nt8 (l : List Int) : List Nat := nt 8 1 (rsd l)

theorem rsd_len (l : List Int) : (rsd l).length = l.length := by unfold rsd; rw [List.length_map]

theorem nt8_len (l : List Int) (h : l.length = 256) : (nt8 l).length = 256 := nt_len 8 1 _ (by rw [rsd_len, h]; rfl)

theorem evL_sum (r : F) (l : List Nat) : evL r l = ∑ i : Fin l.length, (l[i.1] : F) * r ^ i.1 := by
  induction l with
  | nil => rfl
  | cons a l ih =>
    rw [evL, ih]
    show _ = ∑ i : Fin (l.length + 1), _
    rw [Fin.sum_univ_succ, Finset.mul_sum]
    simp only [Fin.val_zero, List.getElem_cons_zero, pow_zero, mul_one, Fin.val_succ, List.getElem_cons_succ, pow_succ]
    congr 1
    exact Finset.sum_congr rfl fun i _ => by ring

theorem rsd_res (l : List Int) (h : l.length = 256) (i : Fin 256) : (((rsd l).getD i.1 0 : Nat) : F) = res (pl l) i := by
  unfold rsd res pl
  rw [List.getD_eq_getElem _ _ (by rw [List.length_map]; omega), List.getD_eq_getElem _ _ (by omega), List.getElem_map]
  generalize l[i.1]'(by omega) = x
  rw [← Int.cast_natCast, Int.toNat_of_nonneg (by omega)]
  apply cast_eq_of_dvd
  omega

theorem nt8_spec (l : List Int) (h : l.length = 256) (i : Fin 256) : (((nt8 l).getD i.1 0 : Nat) : F) = fNtt (res (pl l)) i := by
  unfold nt8
  rw [nt_spec 8 1 _ (by rw [rsd_len, h]; rfl) (by omega) (by omega) i.1 (by have := i.2; omega), fNtt_eval, show 1 * 2 ^ 8 + i.1 = 256 + i.1 from rfl, evL_sum]
  have hl : (rsd l).length = 256 := by rw [rsd_len, h]
  unfold evalAt
  refine Fintype.sum_equiv (finCongr hl) _ _ fun j => ?_
  have e : ((rsd l)[j.1] : F) = res (pl l) (finCongr hl j) := by
    rw [← rsd_res l h, ← List.getD_eq_getElem _ 0 j.2]
    rfl
  rw [e]
  rfl

/-- Products of values. -/
def pw : List Nat → List Nat → List Nat
  | a :: as, b :: bs => Nat.mod (Nat.mul a b) 8380417 :: pw as bs
  | _, _ => []
/-- Sums of values. -/
def ad : List Nat → List Nat → List Nat
  | a :: as, b :: bs => Nat.mod (Nat.add a b) 8380417 :: ad as bs
  | _, _ => []

theorem pw_getD (a b : List Nat) (h : a.length = b.length) (i : Nat) : (((pw a b).getD i 0 : Nat) : F) = (a.getD i 0 : Nat) * (b.getD i 0 : Nat) ∧ (pw a b).length = a.length := by
  induction a generalizing b i with
  | nil => simp [pw]
  | cons x a ih =>
    cases b with
    | nil => simp at h
    | cons y b =>
      rw [pw]
      refine ⟨?_, by rw [List.length_cons, (ih b (by simpa using h) 0).2, List.length_cons]⟩
      cases i with
      | zero =>
        simp only [List.getD_cons_zero]
        rw [show Nat.mod (Nat.mul x y) 8380417 = (x * y) % 8380417 from rfl, castq, Nat.cast_mul]
      | succ i =>
        simp only [List.getD_cons_succ]
        exact (ih b (by simpa using h) i).1

theorem ad_getD (a b : List Nat) (h : a.length = b.length) (i : Nat) : (((ad a b).getD i 0 : Nat) : F) = (a.getD i 0 : Nat) + (b.getD i 0 : Nat) ∧ (ad a b).length = a.length := by
  induction a generalizing b i with
  | nil => cases b with
    | nil => simp [ad]
    | cons y b => simp at h
  | cons x a ih =>
    cases b with
    | nil => simp at h
    | cons y b =>
      rw [ad]
      refine ⟨?_, by rw [List.length_cons, (ih b (by simpa using h) 0).2, List.length_cons]⟩
      cases i with
      | zero =>
        simp only [List.getD_cons_zero]
        rw [show Nat.mod (Nat.add x y) 8380417 = (x + y) % 8380417 from rfl, castq, Nat.cast_add]
      | succ i =>
        simp only [List.getD_cons_succ]
        exact (ih b (by simpa using h) i).1

/-- The values of a row of the matrix times a vector, from the values. -/
def dot (m : Fin 4 → List Int) (v : Fin 4 → List Nat) : List Nat :=
  ad (ad (pw (rsd (m 0)) (v 0)) (pw (rsd (m 1)) (v 1))) (ad (pw (rsd (m 2)) (v 2)) (pw (rsd (m 3)) (v 3)))

theorem dot_spec (m v : Fin 4 → List Int) (vh : Fin 4 → List Nat) (hm : ∀ j, (m j).length = 256) (hv : ∀ j, (v j).length = 256)
    (hvh : ∀ j, nt8 (v j) = vh j) (i : Fin 256) :
    (((dot m vh).getD i.1 0 : Nat) : F) = ∑ j, res (pl (m j)) i * fNtt (res (pl (v j))) i ∧ (dot m vh).length = 256 := by
  have l1 : ∀ j, (rsd (m j)).length = 256 := fun j => by rw [rsd_len, hm]
  have l2 : ∀ j, (vh j).length = 256 := fun j => by rw [← hvh, nt8_len _ (hv j)]
  have p := fun j => pw_getD (rsd (m j)) (vh j) ((l1 j).trans (l2 j).symm) i.1
  have pl' : ∀ j, (pw (rsd (m j)) (vh j)).length = 256 := fun j => by rw [(p j).2, l1]
  have a1 := ad_getD _ _ ((pl' 0).trans (pl' 1).symm) i.1
  have a2 := ad_getD _ _ ((pl' 2).trans (pl' 3).symm) i.1
  have a := ad_getD _ _ (show (ad (pw (rsd (m 0)) (vh 0)) (pw (rsd (m 1)) (vh 1))).length = (ad (pw (rsd (m 2)) (vh 2)) (pw (rsd (m 3)) (vh 3))).length by
    rw [a1.2, a2.2, pl' 0, pl' 2]) i.1
  have q : ∀ j, (((pw (rsd (m j)) (vh j)).getD i.1 0 : Nat) : F) = res (pl (m j)) i * fNtt (res (pl (v j))) i := fun j => by
    rw [(p j).1, rsd_res _ (hm j), ← hvh, nt8_spec _ (hv j)]
  unfold dot
  refine ⟨?_, by rw [a.2, a1.2, pl' 0]⟩
  rw [a.1, a1.1, a2.1, q 0, q 1, q 2, q 3, Fin.sum_univ_four]
  ring

variable {A : Fin 4 → Fin 4 → Spec.Rq} {M : Fin 4 → Fin 4 → List Int}

/-- `A·y` from values. -/
theorem wOf_eq (hM : ∀ i j, (M i j).length = 256) (hA : ∀ i j, Spec.IsNtt (A i j) (pl (M i j))) (y w : Fin 4 → List Int) (yh : Fin 4 → List Nat)
    (hy : ∀ k, (y k).length = 256) (hw : ∀ k, (w k).length = 256) (hr : ∀ k, ∀ x ∈ w k, 0 ≤ x ∧ x < 8380417) (hyh : ∀ j, nt8 (y j) = yh j)
    (h : ∀ k, nt8 (w k) = dot (M k) yh) : Spec.wOf A (vl y) = vl w := by
  funext k
  refine (std_of_res (a := pl (w k)) (fun i => hr k _ (pl_mem _ (hw k) i)) ?_).symm
  apply fNtt_inj
  rw [fNtt_matMul hA]
  funext i
  rw [← nt8_spec _ (hw k), h k, (dot_spec (M k) y yh (hM k) hy hyh i).1, Finset.sum_apply]
  rfl

/-- `A·s1 + s2` from values. -/
theorem tOf_eq (hM : ∀ i j, (M i j).length = 256) (hA : ∀ i j, Spec.IsNtt (A i j) (pl (M i j))) (y s w : Fin 4 → List Int) (yh : Fin 4 → List Nat)
    (hy : ∀ k, (y k).length = 256) (hs : ∀ k, (s k).length = 256) (hw : ∀ k, (w k).length = 256) (hr : ∀ k, ∀ x ∈ w k, 0 ≤ x ∧ x < 8380417)
    (hyh : ∀ j, nt8 (y j) = yh j) (h : ∀ k, nt8 (w k) = ad (dot (M k) yh) (nt8 (s k))) : Spec.tOf A (vl y) (vl s) = vl w := by
  funext k
  refine (std_of_res (a := pl (w k)) (fun i => hr k _ (pl_mem _ (hw k) i)) ?_).symm
  apply fNtt_inj
  rw [fNtt_add, fNtt_matMul hA]
  funext i
  have d := dot_spec (M k) y yh (hM k) hy hyh i
  rw [← nt8_spec _ (hw k), h k, (ad_getD _ _ (by rw [d.2, nt8_len _ (hs k)]) i.1).1, d.1, nt8_spec _ (hs k), Pi.add_apply, Finset.sum_apply]
  rfl

/-- `c·v` from values. -/
theorem cMul_eq (cp : List Int) (v p : Fin 4 → List Int) (B : Int) (hB : 39 * B < 4190208) (hc : cp.length = 256) (hv : ∀ k, (v k).length = 256) (hp : ∀ k, (p k).length = 256)
    (hct : ∀ j, pl cp j = 0 ∨ pl cp j = 1 ∨ pl cp j = -1) (hcc : (supp (pl cp)).card = 39) (hvB : ∀ k, ∀ x ∈ v k, -B ≤ x ∧ x ≤ B)
    (hpB : ∀ k, ∀ x ∈ p k, -4190208 ≤ x ∧ x ≤ 4190208) (h : ∀ k, nt8 (p k) = pw (nt8 cp) (nt8 (v k))) : Spec.cMul (pl cp) (vl v) = vl p := by
  funext k i
  have hvk : Bnd B (pl (v k)) := fun i => hvB k _ (pl_mem _ (hv k) i)
  have b := negaMul_bnd (pl cp) (pl (v k)) B hct hvk i
  rw [hcc] at b
  have hpk := hpB k _ (pl_mem _ (hp k) i)
  have e : res (pl (p k)) = res (negaMul (pl cp) (pl (v k))) := by
    apply fNtt_inj
    rw [res_negaMul, fNtt_mul]
    funext i
    rw [← nt8_spec _ (hp k), h k, (pw_getD _ _ (by rw [nt8_len _ hc, nt8_len _ (hv k)]) i.1).1, nt8_spec _ hc, nt8_spec _ (hv k)]
  have ei := congrFun e i
  simp only [res] at ei
  have := (ZMod.intCast_eq_intCast_iff_dvd_sub _ _ 8380417).1 ei
  show negaMul (pl cp) (pl (v k)) i = pl (p k) i
  have e2 : negaMul (pl cp) (pl (v k)) i - pl (p k) i = 0 := by
    generalize negaMul (pl cp) (pl (v k)) i = x at *
    generalize pl (p k) i = y at *
    push_cast at this b
    omega
  omega

/-! ## Sampling -/

/-- The model of fips202.c, evaluated on numbers. -/
theorem shake256_eval (O : Keccak.Oob) (n : Nat) (m : Bytes) : Keccak.shake256 O n m = some (unb n (Keccak.Eval.spongeN 136 0x1F n m)) := by
  obtain ⟨out, h1, -, h3⟩ := Props.C82_shake256 O n m
  rw [h1]
  exact congrArg some (Keccak.bitsOf_inj (h3.trans (Keccak.Eval.spongeN_eq Keccak.domain_shake 136 (by omega) (by omega) m n).symm))

@[inherit_doc shake256_eval]
theorem shake128_eval (O : Keccak.Oob) (n : Nat) (m : Bytes) : Keccak.shake128 O n m = some (unb n (Keccak.Eval.spongeN 168 0x1F n m)) := by
  obtain ⟨out, h1, -, h3⟩ := Props.C82_shake128 O n m
  rw [h1]
  exact congrArg some (Keccak.bitsOf_inj (h3.trans (Keccak.Eval.spongeN_eq Keccak.domain_shake 168 (by omega) (by omega) m n).symm))

/-- The value of a digest, checked with the model of fips202.c. -/
theorem digest256 (O : Keccak.Oob) (n : Nat) (x y : Bytes) (h : Keccak.shake256 O n x = some y) : squeeze (Props.fipsShake.shake256 x) 0 n = y := by
  rw [Props.C84_shake256_is_model] at h
  exact Option.some.inj h

open private slice_of_bits from Verif.Props.Keccak in
/-- The same for SHAKE128. -/
theorem digest128 (O : Keccak.Oob) (n : Nat) (x y : Bytes) (h : Keccak.shake128 O n x = some y) : squeeze (Props.fipsShake.shake128 x) 0 n = y := by
  obtain ⟨out, h1, h2, h3⟩ := Props.C82_shake128 O n x
  rw [h] at h1
  cases h1
  subst h2
  rw [slice_of_bits _ _ (Props.fipsShake.shake128 x) (fun _ => rfl) y h3]
  simp [Dilithium.squeeze]

theorem polyUniform_of (rho : Bytes) (n : UInt16) (buf : Bytes) (l : List Int) (hb : squeeze (Props.fipsShake.shake128 (rho ++ nonceBytes n)) 0 840 = buf)
    (h : rejUniform 256 buf = l) (hl : l.length = 256) : polyUniform wrapSem Props.fipsShake rho n = some (pl l) := by
  unfold polyUniform stream128
  dsimp only
  rw [hb, h, uniformLoop, if_neg (by omega), Option.map_some, polyOfList_eq _ _ hl]

theorem squeeze_append (s : Nat → UInt8) (n m : Nat) : squeeze s 0 (n + m) = squeeze s 0 n ++ squeeze s n m := by
  unfold squeeze
  rw [List.range_add, List.map_append, List.map_map]
  congr 1
  apply List.map_congr_left
  intro x _
  simp

theorem polyUniformEta_of (seed : Bytes) (n : UInt16) (b1 b2 : Bytes) (l : List Int)
    (hb : squeeze (Props.fipsShake.shake256 (seed ++ nonceBytes n)) 0 272 = b1 ++ b2) (h1 : b1.length = 136)
    (h : rejEta 256 b1 ++ rejEta (256 - (rejEta 256 b1).length) b2 = l) (hl : l.length = 256) :
    polyUniformEta wrapSem Props.fipsShake seed n = some (pl l) := by
  rw [squeeze_append _ 136 136] at hb
  obtain ⟨e1, e2⟩ := List.append_inj hb (by rw [squeeze_length, h1])
  unfold polyUniformEta stream256
  dsimp only
  rw [e1, etaLoop]
  by_cases hs : (rejEta 256 b1).length < 256
  · rw [if_pos hs, e2, h, etaLoop, if_neg (by omega), Option.map_some, polyOfList_eq _ _ hl]
  · have hz : (rejEta (256 - (rejEta 256 b1).length) b2).length = 0 := by
      have : (rejEta 256 b1 ++ rejEta (256 - (rejEta 256 b1).length) b2).length = 256 := by rw [h, hl]
      rw [List.length_append] at this
      omega
    rw [List.length_eq_zero_iff.1 hz, List.append_nil] at h
    rw [if_neg hs, h, Option.map_some, polyOfList_eq _ _ hl]

theorem polyUniformGamma1_of (seed : Bytes) (n : UInt16) (buf : Bytes) (l : List Int)
    (hb : squeeze (Props.fipsShake.shake256 (seed ++ nonceBytes n)) 0 680 = buf) (h : List.ofFn (polyzUnpack wrapSem buf) = l) :
    polyUniformGamma1 wrapSem Props.fipsShake seed n = pl l := by
  unfold polyUniformGamma1 stream256
  rw [hb]
  exact pl_ofFn _ _ h

/-- The first position from `p` with a byte at most `i`. -/
def next (buf : Bytes) (i : Nat) : Nat → Nat → Option Nat
  | 0, _ => none
  | f + 1, p => if (buf.getD p 0).toNat ≤ i then some p else next buf i f (p + 1)

theorem next_spec (buf : Bytes) (i f p q : Nat) (h : next buf i f p = some q) :
    p ≤ q ∧ q < p + f ∧ (∀ k, p ≤ k → k < q → i < (buf.getD k 0).toNat) ∧ (buf.getD q 0).toNat ≤ i := by
  induction f generalizing p with
  | zero => simp [next] at h
  | succ f ih =>
    rw [next] at h
    split at h
    · cases h
      exact ⟨le_refl _, by omega, fun k h1 h2 => by omega, by assumption⟩
    · rename_i hn
      obtain ⟨a, b, c, d⟩ := ih _ h
      refine ⟨by omega, by omega, fun k h1 h2 => ?_, d⟩
      by_cases hk : k = p
      · subst hk; omega
      · exact c k (by omega) h2

/-- `SampleInBall` on a buffer. -/
def ball (buf : Bytes) : Nat → Nat → Nat → List Int → Option (List Int)
  | 0, _, _, c => some c
  | n + 1, i, p, c => (next buf i (136 - p) p).bind fun q =>
    ball buf n (i + 1) (q + 1) ((c.set i (c.getD (buf.getD q 0).toNat 0)).set (buf.getD q 0).toNat
      (if (buf.getD ((i - 217) / 8) 0).toNat.testBit ((i - 217) % 8) then -1 else 1))

theorem set_getD (l : List Int) (i m : Nat) (v : Int) (h : i < l.length) : (l.set i v).getD m 0 = if m = i then v else l.getD m 0 := by
  rw [List.getD_eq_getElem?_getD, List.getD_eq_getElem?_getD, List.getElem?_set]
  by_cases e : i = m
  · subst e; rw [if_pos rfl, if_pos h, if_pos rfl]; rfl
  · rw [if_neg e, if_neg (Ne.symm e)]

theorem ball_spec (s : Nat → UInt8) (buf : Bytes) (hs : ∀ k < 136, s k = buf.getD k 0) (n i p : Nat) (hi : i + n ≤ 256) (c c' : List Int) (hc : c.length = 256)
    (h : ball buf n i p c = some c') : Spec.BallSteps s n i p (pl c) (pl c') ∧ c'.length = 256 := by
  induction n generalizing i p c with
  | zero => rw [ball] at h; cases h; exact ⟨rfl, hc⟩
  | succ n ih =>
    rw [ball, Option.bind_eq_some_iff] at h
    obtain ⟨q, hq, h⟩ := h
    obtain ⟨h1, h2, h3, h4⟩ := next_spec _ _ _ _ _ hq
    have hlt : q < 136 := by omega
    obtain ⟨hb, hl⟩ := ih (i + 1) (q + 1) (by omega) _ (by rw [List.length_set, List.length_set, hc]) h
    refine ⟨⟨q, h1, fun k a b => by rw [hs k (by omega)]; exact h3 k a b, by rw [hs q hlt]; exact h4, ?_⟩, hl⟩
    convert hb using 1
    funext k
    unfold pl
    dsimp only
    rw [hs q hlt, hs ((i - 217) / 8) (by omega)]
    generalize (if (buf.getD ((i - 217) / 8) 0).toNat.testBit ((i - 217) % 8) = true then (-1 : Int) else 1) = v
    have hx := (buf.getD q 0).toNat_lt
    generalize (buf.getD q 0).toNat = x at hx h4 ⊢
    have hk := k.2
    rw [set_getD _ _ _ _ (by rw [List.length_set]; omega), set_getD _ _ _ _ (by omega)]

theorem polyChallenge_of (seed buf : Bytes) (cp : List Int) (hl : seed.length = 32) (hb : squeeze (Props.fipsShake.shake256 seed) 0 136 = buf)
    (h : ball buf 39 217 8 (List.replicate 256 0) = some cp) : polyChallenge wrapSem Props.fipsShake seed = some (pl cp) ∧ cp.length = 256 := by
  have hs : ∀ k < 136, Props.fipsShake.shake256 seed k = buf.getD k 0 := fun k hk => by
    subst hb
    unfold squeeze
    rw [List.getD_eq_getElem _ _ (by rw [List.length_map, List.length_range]; exact hk), List.getElem_map, List.getElem_range, Nat.zero_add]
  obtain ⟨b, l⟩ := ball_spec _ buf hs 39 217 8 (by omega) _ cp (List.length_replicate ..) h
  refine ⟨(polyChallenge_iff _ _ _).2 ?_, l⟩
  rw [List.take_of_length_le (by omega)]
  unfold Spec.SampleInBall
  convert b using 1
  funext i
  unfold pl
  rw [List.getD_eq_getElem _ _ (by rw [List.length_replicate]; exact i.2), List.getElem_replicate]

/-! ## Coefficients by position -/

/-- The coefficient at a position of a number. -/
def dg (n i : Nat) : Int := ((Nat.mod (Nat.shiftRight n (Nat.mul 24 i)) 16777216 : Nat) : Int) - 8388608
/-- The polynomial of a number. -/
def dp (n : Nat) : Poly := fun i => dg n i.1
/-- The vector of four numbers. -/
def dv (v : Fin 4 → Nat) : Vec := fun k => dp (v k)

theorem unp_getD (k n i : Nat) (h : i < k) : (unp k n).getD i 0 = dg n i := by
  induction k generalizing n i with
  | zero => omega
  | succ k ih =>
    cases i with
    | zero => rfl
    | succ i =>
      rw [unp, List.getD_cons_succ, ih _ _ (by omega)]
      unfold dg
      have e : Nat.shiftRight (Nat.div n 16777216) (Nat.mul 24 i) = Nat.shiftRight n (Nat.mul 24 (i + 1)) := by
        show (n / 16777216) >>> (24 * i) = n >>> (24 * (i + 1))
        rw [Nat.shiftRight_eq_div_pow, Nat.shiftRight_eq_div_pow, Nat.div_div_eq_div_mul, show 24 * (i + 1) = 24 + 24 * i by omega, Nat.pow_add]
      rw [e]

theorem pl_unp (n : Nat) : pl (unp 256 n) = dp n := funext fun i => unp_getD 256 n i.1 i.2

theorem vl_unp (v : Fin 4 → List Int) (n : Fin 4 → Nat) (h : ∀ k, v k = unp 256 (n k)) : vl v = dv n := by
  funext k
  unfold vl dv
  rw [h, pl_unp]

/-! The same from evaluations of the model of fips202.c. -/

theorem uniform_of (O : Keccak.Oob) (rho : Bytes) (n : UInt16) (l : List Int) (h : (Keccak.shake128 O 840 (rho ++ nonceBytes n)).map (rejUniform 256) = some l)
    (hl : l.length = 256) : polyUniform wrapSem Props.fipsShake rho n = some (pl l) := by
  obtain ⟨b, hb, h⟩ := Option.map_eq_some_iff.1 h
  exact polyUniform_of rho n b l (digest128 O _ _ _ hb) h hl

/-- The coefficients from two blocks. -/
def etaOf (b : Bytes) : List Int := rejEta 256 (b.take 136) ++ rejEta (256 - (rejEta 256 (b.take 136)).length) (b.drop 136)

theorem eta_of (O : Keccak.Oob) (seed : Bytes) (n : UInt16) (l : List Int) (h : (Keccak.shake256 O 272 (seed ++ nonceBytes n)).map etaOf = some l)
    (hl : l.length = 256) : polyUniformEta wrapSem Props.fipsShake seed n = some (pl l) := by
  obtain ⟨b, hb, h⟩ := Option.map_eq_some_iff.1 h
  have hb' := digest256 O _ _ _ hb
  have lb : b.length = 272 := by rw [← hb']; exact squeeze_length _ _ _
  exact polyUniformEta_of seed n (b.take 136) (b.drop 136) l (by rw [hb', List.take_append_drop]) (by rw [List.length_take, lb]; rfl) h hl

theorem gamma_of (O : Keccak.Oob) (seed : Bytes) (n : UInt16) (N : Nat) (h : (Keccak.shake256 O 680 (seed ++ nonceBytes n)).map (List.take 576) =
    some (polyzPack wrapSem (dp N))) (hr : ∀ i, -131072 < dp N i ∧ dp N i ≤ 131072) : polyUniformGamma1 wrapSem Props.fipsShake seed n = pl (unp 256 N) := by
  obtain ⟨b, hb, h⟩ := Option.map_eq_some_iff.1 h
  unfold polyUniformGamma1 stream256
  rw [digest256 O _ _ _ hb, pl_unp, ← List.take_append_drop 576 b, h]
  exact polyz_un_pk _ _ hr

theorem challenge_of (O : Keccak.Oob) (seed : Bytes) (cp : List Int) (hl : seed.length = 32)
    (h : (Keccak.shake256 O 136 seed).bind (fun b => ball b 39 217 8 (List.replicate 256 0)) = some cp) :
    polyChallenge wrapSem Props.fipsShake seed = some (pl cp) := by
  obtain ⟨b, hb, h⟩ := Option.bind_eq_some_iff.1 h
  exact (polyChallenge_of seed b cp hl (digest256 O _ _ _ hb) h).1

end Verif.Dilithium.Eval
