import Verif.Proof.GpnpLinear
import Verif.Proof.GpnpCert

/-!
# The factors of GPnP
-/

namespace OpenGV

open Matrix

/-- With the points of the control points the back substitution returns the coefficients. -/
theorem Gpnp1.factors_eq {a v0 : Fin 12 → ℝ} {c : Fin 4 → Vec3} {z0 : ℝ} {fs : List ℝ}
    (hx : SameDist (a + z0 • v0) c)
    (hf : (gRun (init a v0 (c 0) (c 1) (c 2) (c 3)) compute).bind factors = some fs) :
    fs = [z0] := by
  obtain ⟨G, hG, hf⟩ := Option.bind_eq_some_iff.1 hf
  have h0 := linear hx hG
  unfold factors at hf
  split_ifs at hf with hp
  have p0 : G 3 1 ≠ 0 := hp
  have e0 : -G 3 2 / G 3 1 = z0 := by
    rw [div_eq_iff p0]
    linarith
  simp only [e0] at hf
  exact (Option.some.inj hf).symm

/-- With one point four times, the back substitution fails if the four points can coincide. -/
theorem Gpnp1.factors_coincident {a v0 : Fin 12 → ℝ} {p : Vec3} {z0 : ℝ}
    (hx : ∀ i j, gpnpCcam (a + z0 • v0) i = gpnpCcam (a + z0 • v0) j) :
    (gRun (init a v0 p p p p) compute).bind factors = none := by
  cases hG : gRun (init a v0 p p p p) compute with
  | none => rfl
  | some G =>
    have h := coincident hx hG
    show factors G = none
    unfold factors
    rw [if_pos (h)]

/-- With the points of the control points the back substitution returns the coefficients. -/
theorem Gpnp2.factors_eq {a v0 v1 : Fin 12 → ℝ} {c : Fin 4 → Vec3} {z0 z1 : ℝ} {fs : List ℝ}
    (hx : SameDist (a + z0 • v0 + z1 • v1) c)
    (hf : (gRun (init a v0 v1 (c 0) (c 1) (c 2) (c 3)) compute).bind factors = some fs) :
    fs = [z0, z1] := by
  obtain ⟨G, hG, hf⟩ := Option.bind_eq_some_iff.1 hf
  obtain ⟨h0, h1⟩ := linear hx hG
  unfold factors at hf
  split_ifs at hf with hp
  push Not at hp
  obtain ⟨p0, p1⟩ := hp
  have e0 : -G 8 5 / G 8 4 = z0 := by
    rw [div_eq_iff p0]
    linarith
  have e1 : -(G 7 4 * z0 + G 7 5) / G 7 3 = z1 := by
    rw [div_eq_iff p1]
    linarith
  simp only [e0, e1] at hf
  exact (Option.some.inj hf).symm

/-- With one point four times, the back substitution fails if the four points can coincide. -/
theorem Gpnp2.factors_coincident {a v0 v1 : Fin 12 → ℝ} {p : Vec3} {z0 z1 : ℝ}
    (hx : ∀ i j, gpnpCcam (a + z0 • v0 + z1 • v1) i = gpnpCcam (a + z0 • v0 + z1 • v1) j) :
    (gRun (init a v0 v1 p p p p) compute).bind factors = none := by
  cases hG : gRun (init a v0 v1 p p p p) compute with
  | none => rfl
  | some G =>
    have h := coincident hx hG
    show factors G = none
    unfold factors
    rw [if_pos (Or.inl h)]

/-- With the points of the control points the back substitution returns the coefficients. -/
theorem Gpnp3.factors_eq {a v0 v1 v2 : Fin 12 → ℝ} {c : Fin 4 → Vec3} {z0 z1 z2 : ℝ} {fs : List ℝ}
    (hx : SameDist (a + z0 • v0 + z1 • v1 + z2 • v2) c)
    (hf : (gRun (init a v0 v1 v2 (c 0) (c 1) (c 2) (c 3)) compute).bind factors = some fs) :
    fs = [z0, z1, z2] := by
  obtain ⟨G, hG, hf⟩ := Option.bind_eq_some_iff.1 hf
  obtain ⟨h0, h1, h2⟩ := linear hx hG
  unfold factors at hf
  split_ifs at hf with hp
  push Not at hp
  obtain ⟨p0, p1, p2⟩ := hp
  have e0 : -G 13 17 / G 13 16 = z0 := by
    rw [div_eq_iff p0]
    linarith
  have e1 : -(G 12 16 * z0 + G 12 17) / G 12 15 = z1 := by
    rw [div_eq_iff p1]
    linarith
  have e2 : -(G 11 15 * z1 + G 11 16 * z0 + G 11 17) / G 11 14 = z2 := by
    rw [div_eq_iff p2]
    linarith
  simp only [e0, e1, e2] at hf
  exact (Option.some.inj hf).symm

/-- With one point four times, the back substitution fails if the four points can coincide. -/
theorem Gpnp3.factors_coincident {a v0 v1 v2 : Fin 12 → ℝ} {p : Vec3} {z0 z1 z2 : ℝ}
    (hx : ∀ i j, gpnpCcam (a + z0 • v0 + z1 • v1 + z2 • v2) i = gpnpCcam (a + z0 • v0 + z1 • v1 + z2 • v2) j) :
    (gRun (init a v0 v1 v2 p p p p) compute).bind factors = none := by
  cases hG : gRun (init a v0 v1 v2 p p p p) compute with
  | none => rfl
  | some G =>
    have h := coincident hx hG
    show factors G = none
    unfold factors
    rw [if_pos (Or.inl h)]

/-- With the points of the control points the back substitution returns the coefficients. -/
theorem Gpnp4.factors_eq {a v0 v1 v2 v3 : Fin 12 → ℝ} {c : Fin 4 → Vec3} {z0 z1 z2 z3 : ℝ} {fs : List ℝ}
    (hx : SameDist (a + z0 • v0 + z1 • v1 + z2 • v2 + z3 • v3) c)
    (hf : (gRun (init a v0 v1 v2 v3 (c 0) (c 1) (c 2) (c 3)) compute).bind factors = some fs) :
    fs = [z0, z1, z2, z3] := by
  obtain ⟨G, hG, hf⟩ := Option.bind_eq_some_iff.1 hf
  obtain ⟨h0, h1, h2, h3⟩ := linear hx hG
  unfold factors at hf
  split_ifs at hf with hp
  push Not at hp
  obtain ⟨p0, p1, p2, p3⟩ := hp
  have e0 : -G 23 36 / G 23 35 = z0 := by
    rw [div_eq_iff p0]
    linarith
  have e1 : -(G 22 35 * z0 + G 22 36) / G 22 34 = z1 := by
    rw [div_eq_iff p1]
    linarith
  have e2 : -(G 21 34 * z1 + G 21 35 * z0 + G 21 36) / G 21 33 = z2 := by
    rw [div_eq_iff p2]
    linarith
  have e3 : -(G 20 33 * z2 + G 20 34 * z1 + G 20 35 * z0 + G 20 36) / G 20 32 = z3 := by
    rw [div_eq_iff p3]
    linarith
  simp only [e0, e1, e2, e3] at hf
  exact (Option.some.inj hf).symm

/-- With one point four times, the back substitution fails if the four points can coincide. -/
theorem Gpnp4.factors_coincident {a v0 v1 v2 v3 : Fin 12 → ℝ} {p : Vec3} {z0 z1 z2 z3 : ℝ}
    (hx : ∀ i j, gpnpCcam (a + z0 • v0 + z1 • v1 + z2 • v2 + z3 • v3) i = gpnpCcam (a + z0 • v0 + z1 • v1 + z2 • v2 + z3 • v3) j) :
    (gRun (init a v0 v1 v2 v3 p p p p) compute).bind factors = none := by
  cases hG : gRun (init a v0 v1 v2 v3 p p p p) compute with
  | none => rfl
  | some G =>
    have h := coincident hx hG
    show factors G = none
    unfold factors
    rw [if_pos (Or.inl h)]

/-- With the points of the control points the back substitution returns the coefficients. -/
theorem Gpnp5.factors_eq {a v0 v1 v2 v3 v4 : Fin 12 → ℝ} {c : Fin 4 → Vec3} {z0 z1 z2 z3 z4 : ℝ} {fs : List ℝ}
    (hx : SameDist (a + z0 • v0 + z1 • v1 + z2 • v2 + z3 • v3 + z4 • v4) c)
    (hf : (gRun (init a v0 v1 v2 v3 v4 (c 0) (c 1) (c 2) (c 3)) compute).bind factors = some fs) :
    ∃ w, fs = [z0, z1, z2, z3, w] ∧ ∃ G, gRun (init a v0 v1 v2 v3 v4 (c 0) (c 1) (c 2) (c 3)) compute = some G ∧
      G 38 74 ≠ 0 ∧ G 38 74 * (w - z4) = G 38 76 * (z2 - z1) := by
  obtain ⟨G, hG, hf⟩ := Option.bind_eq_some_iff.1 hf
  obtain ⟨h0, h1, h2, h3, h4⟩ := linear hx hG
  unfold factors at hf
  split_ifs at hf with hp
  push Not at hp
  obtain ⟨p0, p1, p2, p3, p4⟩ := hp
  have e0 : -G 42 79 / G 42 78 = z0 := by
    rw [div_eq_iff p0]
    linarith
  have e1 : -(G 41 78 * z0 + G 41 79) / G 41 77 = z1 := by
    rw [div_eq_iff p1]
    linarith
  have e2 : -(G 40 77 * z1 + G 40 78 * z0 + G 40 79) / G 40 76 = z2 := by
    rw [div_eq_iff p2]
    linarith
  have e3 : -(G 39 76 * z2 + G 39 77 * z1 + G 39 78 * z0 + G 39 79) / G 39 75 = z3 := by
    rw [div_eq_iff p3]
    linarith
  simp only [e0, e1, e2, e3] at hf
  refine ⟨_, (Option.some.inj hf).symm, G, hG, p4, ?_⟩
  field_simp
  linarith

/-- With one point four times, the back substitution fails if the four points can coincide. -/
theorem Gpnp5.factors_coincident {a v0 v1 v2 v3 v4 : Fin 12 → ℝ} {p : Vec3} {z0 z1 z2 z3 z4 : ℝ}
    (hx : ∀ i j, gpnpCcam (a + z0 • v0 + z1 • v1 + z2 • v2 + z3 • v3 + z4 • v4) i = gpnpCcam (a + z0 • v0 + z1 • v1 + z2 • v2 + z3 • v3 + z4 • v4) j) :
    (gRun (init a v0 v1 v2 v3 v4 p p p p) compute).bind factors = none := by
  cases hG : gRun (init a v0 v1 v2 v3 v4 p p p p) compute with
  | none => rfl
  | some G =>
    have h := coincident hx hG
    show factors G = none
    unfold factors
    rw [if_pos (Or.inl h)]

end OpenGV
