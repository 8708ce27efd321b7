import Verif.Proofs.SimCD
import Verif.Proofs.BSem

/-!
# The multi-task solver on real data is the solver over the reals
-/

namespace Sglm
open Scalar Spec

/-- The problem solved by the multi-task solver. -/
noncomputable def probBCD {n p T : ℕ} (X : Fin n → Fin p → ℝ) (f : (Fin n → Fin T → ℝ) → ℝ)
    (g : (Fin n → Fin T → ℝ) → Fin p → Fin T → ℝ) (L : Fin p → ℝ) (φ : Euc T → ℝ) (px : Euc T → ℝ → Euc T)
    (sc : Euc T → Euc T → ℝ) (m0 : XR) : RProb (Euc T) p where
  F W := f (fitMT X (fun j => (W j).ofLp)) + ∑ j, φ (W j)
  G W j := WithLp.toLp 2 (g (fitMT X (fun j => (W j).ofLp)) j)
  L := L
  px := px
  sc := sc
  m0 := m0

namespace MT
section
variable {n p T : ℕ}

/-- The model fit of rows of coefficients. -/
noncomputable abbrev fitE (X : Fin n → Fin p → ℝ) (W : Fin p → Euc T) : Fin n → Fin T → ℝ :=
  fitMT X (fun j => (W j).ofLp)

theorem fitE_set (X : Fin n → Fin p → ℝ) (W : Fin p → Euc T) (j : Fin p) (a : Euc T) (i : Fin n) (t : Fin T) :
    fitE X (Function.update W j a) i t = fitE X W i t + (a.ofLp t - (W j).ofLp t) * X i j := by
  have h := fit_set X (fun j => (W j).ofLp t) j (a.ofLp t) i
  have e : (fun k => (Function.update W j a k).ofLp t) = Function.update (fun j => (W j).ofLp t) j (a.ofLp t) := by
    funext k
    by_cases hk : k = j
    · subst hk; simp
    · simp [hk]
  show fit X (fun k => (Function.update W j a k).ofLp t) i = fit X (fun k => (W k).ofLp t) i + _
  rw [e, h]

theorem vecN_append (a b : ℕ) (f : ℕ → ℝ) : vecN (a + b) f = vecN a f ++ vecN b (fun i => f (a + i)) := by
  unfold vecN
  rw [List.range_add, List.map_append, List.map_map]
  rfl

theorem flat_cons (j : Fin p) (l : List (Fin p)) (W : Fin p → Euc T) (hT : 0 < T) (c : ℕ) :
    RProb.flat (j :: l) W (T + c) = RProb.flat l W c := by
  unfold RProb.flat
  have h1 : (T + c) / Coord.dim (Euc T) = c / Coord.dim (Euc T) + 1 := by
    show (T + c) / T = c / T + 1
    rw [Nat.add_div_left _ hT]
  have h2 : (T + c) % Coord.dim (Euc T) = c % Coord.dim (Euc T) := by
    show (T + c) % T = c % T
    rw [Nat.add_mod_left]
  rw [h1, h2, List.getElem?_cons_succ]

theorem flatten_rows (l : List (Fin p)) (W : Fin p → Euc T) :
    (l.map (fun j => evec (W j))).flatten = vecN (l.length * T) (RProb.flat l W) := by
  rcases Nat.eq_zero_or_pos T with rfl | hT
  · rw [Nat.mul_zero]
    have : ∀ l : List (Fin p), (l.map (fun j => evec (W j))).flatten = [] := by
      intro l
      induction l with
      | nil => rfl
      | cons j l ih => rw [List.map_cons, List.flatten_cons, ih]; rfl
    rw [this]; rfl
  · induction l with
    | nil => rw [List.length_nil, Nat.zero_mul]; rfl
    | cons j l ih =>
      rw [List.map_cons, List.flatten_cons, ih, List.length_cons, Nat.add_mul, Nat.one_mul, Nat.add_comm,
        vecN_append]
      congr 1
      · rw [vecN_eq_vec]
        unfold evec
        congr 1
        funext t
        unfold RProb.flat
        have h1 : (t : ℕ) / Coord.dim (Euc T) = 0 := Nat.div_eq_of_lt t.isLt
        have h2 : (t : ℕ) % Coord.dim (Euc T) = t := Nat.mod_eq_of_lt t.isLt
        rw [h1, h2]
        exact (extV_fin _ t).symm
      · exact vecN_congr fun i _ => (flat_cons j l W hT i).symm

theorem store_eq (N k : ℕ) (hk : k < N) (W : Fin p → Euc T) (l : List (Fin p)) (b : ℕ → ℕ → ℝ) :
    storeIterate (matN N (l.length * T) b) (emat W) (l.map Fin.val) k =
      .ok (matN N (l.length * T) (Function.update b k (RProb.flat l W))) := by
  unfold storeIterate
  rw [List.mapM_map, mapM_ok' (g := fun j => evec (W j))]
  · dsimp only [bind, Except.bind]
    rw [flatten_rows]
    rw [if_pos (show _ = (matN N (l.length * T) b).ncols by rw [vecN_length]; rfl), matN_rows,
      setM_map_range _ _ hk]
    dsimp only [pure, Except.pure]
    congr 1
    show Mat.mk _ _ = Mat.mk _ _
    congr 1
    apply List.map_congr_left
    intro i _
    by_cases h : i = k
    · subst h; rw [Function.update_self, Function.update_self]
    · rw [Function.update_of_ne h, Function.update_of_ne h]
  · intro j _
    exact rowM_mat _ j

theorem vecN_blocks (m T : ℕ) (f : ℕ → ℝ) :
    vecN (m * T) f = ((List.range m).map (fun i => vecN T (fun t => f (i * T + t)))).flatten := by
  induction m with
  | zero => rw [Nat.zero_mul]; rfl
  | succ m ih =>
    rw [List.range_succ, List.map_append, List.flatten_append, ← ih, Nat.add_mul, Nat.one_mul, vecN_append]
    simp

theorem scatter_fold (pt : ℕ → ℝ) (l : List (Fin p)) (hl : l.Nodup) (o : ℕ) (W : Fin p → Euc T) :
    (((List.range' o l.length).map (fun i => vecN T (fun t => pt (i * T + t)))).zip (l.map Fin.val)).foldlM
      (fun (acc : Mat XR) (rj : List XR × ℕ) => do
        let rows' ← setM acc.rows rj.2 rj.1
        pure { acc with rows := rows' }) (emat W) =
    .ok (emat (fun j => if j ∈ l then WithLp.toLp 2 (fun t : Fin T => pt ((o + l.idxOf j) * T + t)) else W j)) := by
  induction l generalizing o W with
  | nil => simp [pure, Except.pure]
  | cons j l ih =>
    rw [List.length_cons, List.range'_succ, List.map_cons, List.map_cons, List.zip_cons_cons, List.foldlM_cons]
    have hset : (do
        let rows' ← setM (emat W).rows (j : ℕ) (vecN T (fun t => pt (o * T + t)))
        pure { (emat W) with rows := rows' } : M (Mat XR)) =
        .ok (emat (Function.update W j (WithLp.toLp 2 (fun t : Fin T => pt (o * T + t))))) := by
      show (setM (List.ofFn fun i => evec (W i)) (j : ℕ) _ >>= _) = _
      rw [setM_ofFn]
      dsimp only [bind, Except.bind, pure, Except.pure]
      show Except.ok (Mat.mk T _) = Except.ok (Mat.mk T _)
      congr 3
      funext k
      by_cases hk : k = j
      · subst hk
        rw [Function.update_self]
        show _ = vec (Function.update W k _ k).ofLp
        rw [Function.update_self, vecN_eq_vec]
      · rw [Function.update_of_ne hk]
        show _ = vec (Function.update W j _ k).ofLp
        rw [Function.update_of_ne hk]
    dsimp only
    rw [hset]
    show List.foldlM _ _ _ = _
    rw [ih (List.nodup_cons.mp hl).2]
    congr 2
    funext k
    by_cases hk : k = j
    · subst hk
      rw [if_neg (List.nodup_cons.mp hl).1, if_pos List.mem_cons_self, Function.update_self,
        List.idxOf_cons_self, Nat.add_zero]
    · by_cases hm : k ∈ l
      · rw [if_pos hm, if_pos (List.mem_cons_of_mem _ hm), List.idxOf_cons_ne _ (Ne.symm hk)]
        have : o + 1 + l.idxOf k = o + (l.idxOf k).succ := by omega
        rw [this]
      · rw [if_neg hm, if_neg (by simp [hk, hm]), Function.update_of_ne hk]

theorem scatter_eq (pt : ℕ → ℝ) (l : List (Fin p)) (hl : l.Nodup) :
    scatter p T (vecN (l.length * T) pt) (l.map Fin.val) = .ok (emat (RProb.scat (E := Euc T) l pt)) := by
  unfold scatter
  rw [vecN_blocks, fromShapeVec_flatten _ (by simp)]
  · dsimp only [bind, Except.bind]
    rw [zeros_eq_mat, List.range_eq_range']
    refine (scatter_fold pt l hl 0 (fun _ => 0)).trans
      (congrArg Except.ok (congrArg (fun W : Fin p → Euc T => emat W) (funext fun j => ?_)))
    unfold RProb.scat
    split
    · rw [Nat.zero_add]; rfl
    · rfl
  · intro x hx
    rw [List.mem_map] at hx
    obtain ⟨i, -, rfl⟩ := hx
    simp

theorem setRow_fold (W : Fin p → Euc T) (j : Fin p) (u : Euc T) :
    (List.range T).foldlM (fun (A : Mat XR) t => do
      let x ← getM (evec u) t
      A.set2 j t x) (emat W) = .ok (emat (Function.update W j u)) := by
  have key : ∀ k (hk : k ≤ T), (List.range k).foldlM (fun (A : Mat XR) t => do
      let x ← getM (evec u) t
      A.set2 j t x) (emat W) = .ok (mat (fun a t => if a = j ∧ (t : ℕ) < k then u.ofLp t else (W a).ofLp t)) := by
    intro k hk
    induction k with
    | zero => simp [pure, Except.pure]
    | succ k ih =>
      rw [List.range_succ, List.foldlM_append, ih (by omega)]
      show ((do let x ← getM (evec u) k; Mat.set2 _ j k x) >>= fun A => pure A : M (Mat XR)) = _
      rw [getM_vec u.ofLp ⟨k, by omega⟩]
      show (Mat.set2 _ _ _ _ >>= _) = _
      have := set2_mat (fun a (t : Fin T) => if a = j ∧ (t : ℕ) < k then u.ofLp t else (W a).ofLp t) j ⟨k, by omega⟩
        (u.ofLp ⟨k, by omega⟩)
      rw [this]
      show Except.ok _ = _
      congr 2
      funext a t
      by_cases ha : a = j
      · subst ha
        rw [Function.update_self]
        by_cases ht : t = ⟨k, by omega⟩
        · subst ht
          rw [Function.update_self, if_pos ⟨rfl, by simp⟩]
        · rw [Function.update_of_ne ht]
          have : (t : ℕ) ≠ k := fun h => ht (Fin.ext h)
          simp only [true_and]
          congr 1
          exact propext ⟨fun h => by omega, fun h => by omega⟩
      · rw [Function.update_of_ne ha]
        simp [ha]
  rw [key T le_rfl]
  congr 2
  funext a
  by_cases ha : a = j
  · subst ha; rw [Function.update_self]; funext t; simp
  · rw [Function.update_of_ne ha]; funext t; simp [ha]

theorem zipIdx_vec (v : Fin T → ℝ) :
    (vec v).zipIdx = List.ofFn (fun t : Fin T => (XR.fin (v t), (t : ℕ))) := by
  apply List.ext_getElem (by simp [vec])
  intro i h1 h2
  simp [vec]

variable {DM DF P : Type} [DesignMatrix XR DM] [MTDatafit XR DM DF] [MTPenalty XR P] {ds : Dataset DM XR} {df : DF}
  {pen : P} {X : Fin n → Fin p → ℝ} {f : (Fin n → Fin T → ℝ) → ℝ} {g : (Fin n → Fin T → ℝ) → Fin p → Fin T → ℝ}
  {L : Fin p → ℝ} {φ : Euc T → ℝ} {px : Euc T → ℝ → Euc T} {sc : Euc T → Euc T → ℝ} {m0 : XR}

theorem viol_eq (hd : MSem ds df X f g L) (hp : BSem pen T φ px sc m0) (W : Fin p → Euc T) (l : List (Fin p)) :
    optCondViolation ds (emat W) (mat (fitE X W)) (l.map Fin.val) df pen =
      .ok ((probBCD X f g L φ px sc m0).viol W l) := by
  unfold optCondViolation constructGrad
  rw [List.mapM_map, mapM_ok' (g := fun j => vec (g (fitE X W) j))]
  · dsimp only [bind, Except.bind]
    rw [hd.nTasks, fromShapeVec_flatten _ (by simp)]
    · exact hp.dist W (fun j => WithLp.toLp 2 (g (fitE X W) j)) l
    · intro x hx
      rw [List.mem_map] at hx
      obtain ⟨i, -, rfl⟩ := hx
      simp
  · intro j _
    exact hd.grad _ j

theorem objective_eq (hd : MSem ds df X f g L) (hp : BSem pen T φ px sc m0) (W : Fin p → Euc T) :
    objective ds df pen (emat W) (mat (fitE X W)) = .ok (XR.fin ((probBCD X f g L φ px sc m0).F W)) := by
  unfold objective
  rw [hd.value, hp.value]
  rfl

theorem bcdStep_eq (hd : MSem ds df X f g L) (hp : BSem pen T φ px sc m0) (hL : ∀ j, 0 ≤ L j) (W : Fin p → Euc T)
    (j : Fin p) :
    bcdStep ds df pen ⟨emat W, mat (fitE X W)⟩ j =
      .ok ⟨emat ((probBCD X f g L φ px sc m0).step W j),
        mat (fitE X ((probBCD X f g L φ px sc m0).step W j))⟩ := by
  unfold bcdStep RProb.step
  rw [hd.step, getM_vec]
  show (if (XR.fin (L j) ==. zero) = true then _ else _) = _
  rw [XR.s_zero, XR.s_beq]
  by_cases h0 : L j = 0
  · have h0' : (probBCD X f g L φ px sc m0).L j = 0 := h0
    rw [if_pos (by simpa using h0), if_pos h0']
    rfl
  · have h0' : ¬ (probBCD X f g L φ px sc m0).L j = 0 := h0
    rw [if_neg (by simpa using h0), if_neg h0']
    dsimp only
    rw [rowM_mat, hd.grad]
    have hs : 0 < 1 / L j := one_div_pos.mpr (lt_of_le_of_ne (hL j) (Ne.symm h0))
    dsimp only [bind, Except.bind]
    rw [map_vec _ (fun x => x /. XR.fin (L j)) (fun x => x / L j) (fun i => XR.s_div _ _ h0), bop_sub_vec]
    dsimp only
    have e : vec (fun t => (W j).ofLp t - g (fitE X W) j t / L j) =
        evec (W j - (1 / (probBCD X f g L φ px sc m0).L j) • (probBCD X f g L φ px sc m0).G W j) := by
      unfold evec
      congr 1
      funext t
      show _ = (W j).ofLp t - (1 / L j) * g (fitE X W) j t
      ring
    rw [e, XR.s_one, XR.s_div _ _ h0, hp.prox _ _ hs, hd.nTasks]
    dsimp only
    set v := px (W j - (1 / (probBCD X f g L φ px sc m0).L j) • (probBCD X f g L φ px sc m0).G W j) (1 / L j)
    have hrow := setRow_fold W j v
    simp only [bind, Except.bind] at hrow
    rw [hrow]
    dsimp only
    rw [zipIdx_vec, mapM_ofFn (b := fun t : Fin T => XR.fin (v.ofLp t - (W j).ofLp t))]
    swap
    · intro t
      dsimp only
      rw [get2_mat, Function.update_self]
      show Except.ok _ = _
      rw [XR.s_sub]
    dsimp only
    have hfit : fitE X (Function.update W j v) = fun i t => fitE X W i t + (v.ofLp t - (W j).ofLp t) * X i j :=
      funext fun i => funext fun t => fitE_set X W j v i t
    show _ = Except.ok (BCDState.mk (emat (Function.update W j v)) (mat (fitE X (Function.update W j v))))
    have hany : anyNonzero (List.ofFn fun t : Fin T => XR.fin (v.ofLp t - (W j).ofLp t)) = true ↔ v - W j ≠ 0 :=
      anyNonzero_evec (v - W j)
    by_cases hv : v - W j = 0
    · rw [if_neg (by rw [hany]; exact not_not.mpr hv), hfit]
      have hv' : ∀ t, v.ofLp t - (W j).ofLp t = 0 := fun t => congrArg (fun x : Euc T => x.ofLp t) hv
      simp [hv', pure, Except.pure]
    · rw [if_pos (hany.mpr hv), hfit]
      have := hd.upd (fitE X W) (fun t => v.ofLp t - (W j).ofLp t) j
      show (DesignMatrix.updateModelFitMT ds.designMatrix (mat (fitE X W)) (vec _) _ >>= _) = _
      rw [this]
      rfl

theorem bcdEpoch_eq (hd : MSem ds df X f g L) (hp : BSem pen T φ px sc m0) (hL : ∀ j, 0 ≤ L j) (W : Fin p → Euc T)
    (l : List (Fin p)) :
    bcdEpoch ds df pen (l.map Fin.val) ⟨emat W, mat (fitE X W)⟩ =
      .ok ⟨emat (l.foldl (probBCD X f g L φ px sc m0).step W),
        mat (fitE X (l.foldl (probBCD X f g L φ px sc m0).step W))⟩ := by
  unfold bcdEpoch
  rw [List.foldlM_map]
  exact (foldlM_ok (fun W : Fin p → Euc T => (⟨emat W, mat (fitE X W)⟩ : BCDState XR)) _
    (probBCD X f g L φ px sc m0).step l (fun _ => True)
    (fun W _ j _ => ⟨bcdStep_eq hd hp hL W j, trivial⟩) W trivial).1

theorem accel_eq (hd : MSem ds df X f g L) (hp : BSem pen T φ px sc m0) (cfg : Solver XR) (l : List (Fin p))
    (hl : l.Nodup) (e : ℕ) (b : ℕ → ℕ → ℝ) (W : Fin p → Euc T) :
    accelBCD ds df pen cfg (l.map Fin.val) e (matN (cfg.K + 1) (l.length * T) b) ⟨emat W, mat (fitE X W)⟩ =
      (fun r => (matN (cfg.K + 1) (l.length * T) r.1, ⟨emat r.2, mat (fitE X r.2)⟩)) <$>
        (probBCD X f g L φ px sc m0).accel cfg l e b W := by
  unfold accelBCD RProb.accel
  split
  · have hk : e % (cfg.K + 1) < cfg.K + 1 := Nat.mod_lt _ (Nat.succ_pos _)
    unfold andersonAccel
    rw [hd.nFeatures]
    dsimp only [bind, Except.bind]
    rw [store_eq _ _ hk]
    dsimp only
    split
    · rw [List.length_map, hd.nTasks, diffMatrix_eq]
      dsimp only
      rw [tMulMat_matN]
      dsimp only
      have hdim : l.length * Coord.dim (Euc T) = l.length * T := rfl
      rw [hdim]
      set b1 := Function.update b (e % (cfg.K + 1)) (RProb.flat l W)
      have hg : (fun a c => ∑ k ∈ Finset.range cfg.K, (b1 (k + 1) a - b1 k a) * (b1 (k + 1) c - b1 k c)) =
        gram cfg.K b1 := rfl
      rw [hg]
      rcases solve_gram cfg.K (l.length * T) b1 with ⟨e', h1, h2⟩ | h1 | ⟨z, h1, h2⟩
      · rw [h1]; rfl
      · rw [h1]; rfl
      · rw [h1]
        dsimp only
        rw [extrapolate_eq _ _ _ _ h2.ne', comb_congr (z := realsOf (vecN cfg.K z)) cfg.K b1
          fun k hk => realsOf_vecN z hk]
        dsimp only
        rw [scatter_eq _ _ hl]
        dsimp only
        rw [hd.nSamples, hd.extra]
        set wa : Fin p → Euc T := RProb.scat l (comb cfg.K b1 z) with hwa
        have hf : (fun i t => (l.map (fun j => X i j * (wa j).ofLp t)).sum) = fitE X wa := by
          funext i t
          exact sum_list_eq l hl _ fun j hj => by
            rw [hwa, scat_zero _ _ _ hj]
            exact mul_zero _
        rw [hf]
        dsimp only
        rw [objective_eq hd hp, objective_eq hd hp]
        dsimp only
        rw [XR.s_lt]
        by_cases hlt : (probBCD X f g L φ px sc m0).F wa < (probBCD X f g L φ px sc m0).F W
        · rw [if_pos (by simpa using hlt), if_pos hlt]; rfl
        · rw [if_neg (by simpa using hlt), if_neg hlt]; rfl
    · rfl
  · rfl

theorem stop_eq (hd : MSem ds df X f g L) (hp : BSem pen T φ px sc m0) (tol km : XR) (l : List (Fin p)) (sz e : ℕ)
    (W : Fin p → Euc T) :
    stopBCD ds df pen tol p (l.map Fin.val) sz km e ⟨emat W, mat (fitE X W)⟩ =
      .ok (decide (e > 0 ∧ e % 10 = 0) &&
        if sz = p then (((probBCD X f g L φ px sc m0).viol W l).2 <=. tol)
        else (((probBCD X f g L φ px sc m0).viol W l).2 <. lit 3 10 *. km)) := by
  unfold stopBCD
  by_cases h : e > 0 ∧ e % 10 = 0
  · rw [if_pos h, decide_eq_true h]
    dsimp only
    rw [objective_eq hd hp, viol_eq hd hp]
    dsimp only [bind, Except.bind]
    rw [Bool.true_and]
    split <;> rfl
  · rw [if_neg h, decide_eq_false h]
    rfl

theorem nz_getD (W : Fin p → Euc T) : ∀ j < p, anyNonzero ((emat W).rows.getD j []) = RProb.nz W j := by
  intro j hj
  have h1 : (emat W).rows.getD j [] = evec (W ⟨j, hj⟩) := by
    rw [List.getD_eq_getElem?_getD]
    unfold emat mat
    dsimp only
    rw [List.getElem?_ofFn, dif_pos hj]
    rfl
  rw [h1]
  unfold RProb.nz
  rw [dif_pos hj, Bool.eq_iff_iff, anyNonzero_evec, Coord.nzB_iff]

/-- The multi-task solver simulates the solver over the reals. -/
theorem simBCD (hd : MSem ds df X f g L) (hp : BSem pen T φ px sc m0) (hL : ∀ j, 0 ≤ L j) {srt : Argsort XR}
    (hs : ArgsortSpec srt) (cfg : Solver XR) {ws0 : ℕ} (h0 : ws0 ≤ p) :
    Skel.Sim (skelBCD srt ds df pen cfg p ws0) ((probBCD X f g L φ px sc m0).skel srt cfg ws0)
      (fun s W => s = ⟨emat W, mat (fitE X W)⟩) (RProb.WsOK p ws0)
      (fun _ sz b b' => b = matN (cfg.K + 1) (sz * T) b') := by
  have hv : ∀ W : Fin p → Euc T, (skelBCD srt ds df pen cfg p ws0).viol ⟨emat W, mat (fitE X W)⟩ =
      .ok ((probBCD X f g L φ px sc m0).viol W (List.finRange p)) := by
    intro W
    have := viol_eq hd hp W (List.finRange p)
    rwa [finRange_val] at this
  have hm : ∀ (W : Fin p → Euc T) kkt km,
      (skelBCD srt ds df pen cfg p ws0).viol ⟨emat W, mat (fitE X W)⟩ = .ok (kkt, km) →
      constructWs srt kkt (emat W) ws0 = pickWs srt kkt p (RProb.nz W) ws0 ∧
        kkt = (probBCD X f g L φ px sc m0).scores W (List.finRange p) := by
    intro W kkt km h
    rw [hv] at h
    have hk : kkt = (probBCD X f g L φ px sc m0).scores W (List.finRange p) := by
      injection h with h; exact (congrArg Prod.fst h).symm
    have hlen : kkt.length = p := by rw [hk, RProb.scores_length]; simp
    refine ⟨?_, hk⟩
    rw [constructWs_eq srt kkt (emat W) ws0 (by rw [hlen, mat_nrows]), mat_nrows]
    exact pickWs_congr srt kkt hlen.le (nz_getD W) ws0
  refine ⟨?_, fun _ => rfl, ?_, ?_, ?_, ?_, ?_, ?_, rfl⟩
  · rintro _ W rfl
    exact hv W
  · rintro _ W kkt km rfl h
    exact (hm W kkt km h).1
  · rintro _ W kkt km ws sz rfl h1 _ h3
    obtain ⟨h4, rfl⟩ := hm W kkt km h1
    obtain ⟨ws', h5, h6, -⟩ := (probBCD X f g L φ px sc m0).pick_ok hs h0 W
    have h3' : constructWs srt _ (emat W) ws0 = .ok (ws, sz) := h3
    rw [h4, h5] at h3'
    injection h3' with h3'
    injection h3' with ha hb
    rw [← ha, ← hb]
    exact h6
  · intro ws sz _
    show Mat.zeros _ _ = _
    rw [hd.nTasks, zeros_eq_mat, matN_eq_mat]
    rfl
  · rintro ws sz _ W rfl ⟨l, rfl, -⟩
    show RelM _ (bcdEpoch ds df pen (l.map Fin.val) _) (.ok ((finws p (l.map Fin.val)).foldl _ W))
    rw [bcdEpoch_eq hd hp hL, finws_map]
    rfl
  · rintro ws sz e _ b _ W rfl ⟨l, rfl, hl, rfl, -⟩ rfl
    show RelM _ (accelBCD ds df pen cfg (l.map Fin.val) e _ _)
      ((probBCD X f g L φ px sc m0).accel cfg (finws p (l.map Fin.val)) e b W)
    rw [finws_map, accel_eq hd hp cfg l hl]
    cases (probBCD X f g L φ px sc m0).accel cfg l e b W with
    | error e => rfl
    | ok r => exact ⟨rfl, rfl⟩
  · rintro ws sz km e _ W rfl ⟨l, rfl, -⟩
    show stopBCD ds df pen cfg.tolerance p (l.map Fin.val) sz km e _ = _
    rw [stop_eq hd hp]
    show _ = Except.ok (_ && if sz = p then ((RProb.viol _ W (finws p (l.map Fin.val))).2 <=. _) else _)
    rw [finws_map]

/-- Runs of the multi-task solver on real data. -/
theorem runBCD_eq (hd : MSem ds df X f g L) (hp : BSem pen T φ px sc m0) (hL : ∀ j, 0 ≤ L j) {srt : Argsort XR}
    (hs : ArgsortSpec srt) (cfg : Solver XR) (df0 : DF) :
    runBCD srt ds df0 pen cfg =
      (fun q => (⟨emat q.1, mat (fitE X q.1)⟩, q.2)) <$> (probBCD X f g L φ px sc m0).run srt cfg := by
  unfold runBCD RProb.run
  rw [hd.nFeatures]
  dsimp only [bind, Except.bind]
  rw [hd.init]
  dsimp only
  have h0 : initBCD ds.targets.nSamples p ds.targets.nTasks = (⟨emat (fun _ : Fin p => (0 : Euc T)),
      mat (fitE X (fun _ : Fin p => (0 : Euc T)))⟩ : BCDState XR) := by
    unfold initBCD
    rw [hd.nTasks, zeros_eq_mat, hd.nSamples, zeros_eq_mat]
    congr 2
    funext i t
    show _ = ∑ j, X i j * (0 : ℝ)
    simp
  rw [h0]
  have := (simBCD hd hp hL hs cfg (Nat.min_le_right cfg.wsStartSize p)).outer cfg.maxIterations
    ⟨emat (fun _ : Fin p => (0 : Euc T)), mat (fitE X (fun _ : Fin p => (0 : Euc T)))⟩ (fun _ => 0) rfl
  exact RelM.eq_map _ this fun x y h => by rw [← h.1, ← h.2]

/-- `solve_multi_task` on real data. -/
theorem solveBCD_eq (hd : MSem ds df X f g L) (hp : BSem pen T φ px sc m0) (hL : ∀ j, 0 ≤ L j)
    {srt : Argsort XR} (hs : ArgsortSpec srt) (cfg : Solver XR) (df0 : DF) :
    cfg.solveMultiTask srt ds df0 pen = (fun q => emat q.1) <$> (probBCD X f g L φ px sc m0).run srt cfg := by
  rw [solve_eq, runBCD_eq hd hp hL hs]
  cases (probBCD X f g L φ px sc m0).run srt cfg <;> rfl

end
end MT
end Sglm
