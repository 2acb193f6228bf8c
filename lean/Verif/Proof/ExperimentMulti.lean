import Verif.Model.ExperimentMulti
import Verif.Proof.Experiment

/-!
# Lemmas for the simulated experiments with several cameras
-/

namespace OpenGV.Experiment

open Matrix

theorem camPointsLoop_get {α : Type} (mk : ℕ → Vec3 → α) : ∀ (ps : List Vec3) (i : ℕ),
    (camPointsLoop mk ps i).length = ps.length ∧
    ∀ k p, ps[k]? = some p → (camPointsLoop mk ps i)[k]? = some (mk (i + k) p) := by
  intro ps
  induction ps with
  | nil => intro i; exact ⟨rfl, by simp⟩
  | cons p ps ih =>
    intro i
    refine ⟨by simp [camPointsLoop, (ih (i + 1)).1], ?_⟩
    intro k q hk
    cases k with
    | zero => cases hk; rfl
    | succ k =>
      have := (ih (i + 1)).2 k q (by simpa using hk)
      rw [camPointsLoop, List.getElem?_cons_succ, this]
      congr 2
      omega

theorem multiPointsLoop_spec {α : Type} (cams : List Cam) (gt : List (List Vec3))
    (mk : ℕ → Cam → ℕ → Vec3 → α) (hgt : gt.length = cams.length) :
    ∀ (todo cam : ℕ) (acc : List (List α)), cam + todo = cams.length → acc.length = cam →
    ∃ L, multiPointsLoop cams gt mk todo cam acc = some L ∧ L.length = cams.length ∧
      (∀ j, j < cam → L[j]? = acc[j]?) ∧
      ∀ j c g, cam ≤ j → cams[j]? = some c → gt[j]? = some g →
        L[j]? = some (camPointsLoop (mk j c) g 0) := by
  intro todo
  induction todo with
  | zero =>
    intro cam acc h hacc
    refine ⟨acc, rfl, by omega, fun _ _ => rfl, ?_⟩
    intro j c g hj hc
    have := (List.getElem?_eq_some_iff.1 hc).1
    omega
  | succ todo ih =>
    intro cam acc h hacc
    have h1 : cam < cams.length := by omega
    have h2 : cam < gt.length := by omega
    obtain ⟨L, e, hl, hlow, hhigh⟩ := ih (cam + 1)
      (acc ++ [camPointsLoop (mk cam cams[cam]) gt[cam] 0]) (by omega) (by simp [hacc])
    refine ⟨L, ?_, hl, ?_, ?_⟩
    · rw [multiPointsLoop, List.getElem?_eq_getElem h1, List.getElem?_eq_getElem h2]
      exact e
    · intro j hj
      rw [hlow j (by omega), List.getElem?_append_left (by omega)]
    · intro j c g hj hc hg
      rcases Nat.eq_or_lt_of_le hj with rfl | hlt
      · rw [hlow cam (by omega), List.getElem?_append_right (by omega), hacc, Nat.sub_self]
        rw [List.getElem?_eq_getElem h1] at hc
        rw [List.getElem?_eq_getElem h2] at hg
        cases hc
        cases hg
        rfl
      · exact hhigh j c g hlt hc hg

theorem multiOutlierLoop_spec {α : Type} (cams : List Cam) (upd : Cam → α → Vec3 → α) (k : ℕ)
    (out : ℕ → ℕ → Vec3) : ∀ (todo cam : ℕ) (L : List (List α)), cam + todo = cams.length →
    L.length = cams.length → (∀ j l, cam ≤ j → L[j]? = some l → k ≤ l.length) →
    ∃ L', multiOutlierLoop cams upd k out todo cam L = some L' ∧ L'.length = cams.length ∧
      (∀ j, j < cam → L'[j]? = L[j]?) ∧
      ∀ j c l, cam ≤ j → cams[j]? = some c → L[j]? = some l →
        ∃ l', L'[j]? = some l' ∧ l'.length = l.length ∧
          ∀ i s, l[i]? = some s → l'[i]? = some (if i < k then upd c s (out j i) else s) := by
  intro todo
  induction todo with
  | zero =>
    intro cam L h hL _
    refine ⟨L, rfl, hL, fun _ _ => rfl, ?_⟩
    intro j c l hj hc
    have := (List.getElem?_eq_some_iff.1 hc).1
    omega
  | succ todo ih =>
    intro cam L h hL hk
    have h1 : cam < cams.length := by omega
    have h2 : cam < L.length := by omega
    obtain ⟨l', g1, g2, g3, g4⟩ := outlierLoop_spec (fun s q => some (upd cams[cam] s q))
      (fun _ _ => True) (fun _ _ _ _ => ⟨_, rfl, trivial⟩) ((List.range k).map (out cam)) 0 L[cam]
      (fun _ _ _ => trivial)
      (by simpa using hk cam _ le_rfl (List.getElem?_eq_getElem h2))
    simp only [List.length_map, List.length_range, Nat.zero_add, Nat.sub_zero] at g3 g4
    obtain ⟨L', e, hl, hlow, hhigh⟩ := ih (cam + 1) (L.set cam l') (by omega) (by simp [hL])
      (by
        intro j l hj hl
        rw [List.getElem?_set_ne (by omega)] at hl
        exact hk j l (by omega) hl)
    refine ⟨L', ?_, hl, ?_, ?_⟩
    · rw [multiOutlierLoop, List.getElem?_eq_getElem h1, List.getElem?_eq_getElem h2]
      simp only [g1, Option.bind_some]
      exact e
    · intro j hj
      rw [hlow j (by omega), List.getElem?_set_ne (by omega)]
    · intro j c l hj hc hl
      rcases Nat.eq_or_lt_of_le hj with rfl | hlt
      · rw [List.getElem?_eq_getElem h1] at hc
        rw [List.getElem?_eq_getElem h2] at hl
        cases hc
        cases hl
        refine ⟨l', ?_, g2, ?_⟩
        · rw [hlow cam (by omega), List.getElem?_set_self h2]
        · intro i s hs
          split_ifs with hi
          · exact g4 i _ s (Nat.zero_le i) (range_map_get (out cam) hi) hs
          · rw [g3 i (Or.inr (by omega)), hs]
      · exact hhigh j c l hlt hc (by rw [List.getElem?_set_ne (by omega)]; exact hl)

theorem multiOutlierLoop_none {α : Type} (cams : List Cam) (upd : Cam → α → Vec3 → α) (k : ℕ)
    (out : ℕ → ℕ → Vec3) (todo : ℕ) (L : List (List α)) (l : List α) (hl : L[0]? = some l)
    (hk : l.length < k) : multiOutlierLoop cams upd k out (todo + 1) 0 L = none := by
  rw [multiOutlierLoop, hl]
  cases cams[0]? with
  | none => rfl
  | some c =>
    simp only
    rw [outlierLoop_none _ _ 0 l (Nat.zero_le _) (by simpa using hk), Option.bind_none]

/-- The two loops together. -/
theorem multi_spec {α : Type} (cams : List Cam) (gt : List (List Vec3))
    (mk : ℕ → Cam → ℕ → Vec3 → α) (upd : Cam → α → Vec3 → α) (k : ℕ) (out : ℕ → ℕ → Vec3)
    (hgt : gt.length = cams.length) (hk : ∀ g ∈ gt, k ≤ g.length) :
    ∃ L, ((multiPointsLoop cams gt mk cams.length 0 []).bind fun L =>
        multiOutlierLoop cams upd k out cams.length 0 L) = some L ∧ L.length = cams.length ∧
      ∀ cam c g, cams[cam]? = some c → gt[cam]? = some g →
        ∃ l, L[cam]? = some l ∧ l.length = g.length ∧
          ∀ i p, g[i]? = some p →
            l[i]? = some (if i < k then upd c (mk cam c i p) (out cam i) else mk cam c i p) := by
  obtain ⟨L0, e0, h0, -, H0⟩ := multiPointsLoop_spec cams gt mk hgt cams.length 0 [] (by omega) rfl
  have get (j : ℕ) (hj : j < cams.length) : ∃ c g, cams[j]? = some c ∧ gt[j]? = some g :=
    ⟨_, _, List.getElem?_eq_getElem hj, List.getElem?_eq_getElem (by omega)⟩
  obtain ⟨L, e, h1, -, H⟩ := multiOutlierLoop_spec cams upd k out cams.length 0 L0 (by omega) h0
    (by
      intro j l _ hl
      obtain ⟨c, g, hc, hg⟩ := get j (h0 ▸ (List.getElem?_eq_some_iff.1 hl).1)
      rw [H0 j c g (Nat.zero_le _) hc hg] at hl
      cases hl
      rw [(camPointsLoop_get _ _ _).1]
      exact hk g (List.mem_of_getElem? hg))
  refine ⟨L, by rw [e0, Option.bind_some, e], h1, ?_⟩
  intro cam c g hc hg
  obtain ⟨l, hl, hlen, hall⟩ := H cam c _ (Nat.zero_le _) hc (H0 cam c g (Nat.zero_le _) hc hg)
  refine ⟨l, hl, by rw [hlen, (camPointsLoop_get _ _ _).1], ?_⟩
  intro i p hp
  have := (camPointsLoop_get (mk cam c) g 0).2 i p hp
  rw [Nat.zero_add] at this
  exact hall i _ this

theorem bearing_clean (P : Pose) (c : Cam) (noise : ℝ) (xy : ℝ × ℝ) (p : Vec3) (h : noise ≤ 0) :
    bearing P c noise xy p = normalize3 (project P c p) := by
  rw [bearing]
  cases normalize3 (project P c p) with
  | none => rfl
  | some f => rw [Option.bind_some, if_neg (not_lt.2 h)]

theorem project_exact (P : Pose) (c : Cam) (q v : Vec3) (hv : normalize3 (project P c q) = some v) :
    v ⬝ᵥ v = 1 ∧ absScore P c.1 c.2 q v = some 0 := by
  obtain ⟨a, b, d⟩ := normalize3_eq_some hv
  refine ⟨d, ?_⟩
  rw [absScore, ← project_eq, hv]
  simp [d]

end OpenGV.Experiment
