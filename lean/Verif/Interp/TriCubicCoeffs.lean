import Verif.Interp.TriCubic
import Mathlib.Tactic.Ring

/-! The 64 coefficients of `get_coeffs` as a threefold cubic Hermite interpolation. -/

set_option linter.unusedSectionVars false

namespace Verif.Interp

variable {K : Type} [Field K] [LinearOrder K]

/-- Coefficients of the one-dimensional cubic with values `p0`, `p1` and derivatives `m0`, `m1` at 0 and 1. -/
def hc : Nat → K → K → K → K → K
  | 0, p0, _, _, _ => p0
  | 1, _, _, m0, _ => m0
  | 2, p0, p1, m0, m1 => 3 * (p1 - p0) - 2 * m0 - m1
  | _, p0, p1, m0, m1 => 2 * (p0 - p1) + m0 + m1

private theorem co0 (d : Nat → K) : coeffs d 0 = hc 0 (hc 0 (hc 0 (d 0) (d 1) (d 8) (d 9)) (hc 0 (d 2) (d 3)
    (d 10) (d 11)) (hc 0 (d 16) (d 17) (d 32) (d 33)) (hc 0 (d 18) (d 19) (d 34) (d 35))) (hc 0 (hc 0 (d 4) (d 5)
    (d 12) (d 13)) (hc 0 (d 6) (d 7) (d 14) (d 15)) (hc 0 (d 20) (d 21) (d 36) (d 37)) (hc 0 (d 22) (d 23) (d 38)
    (d 39))) (hc 0 (hc 0 (d 24) (d 25) (d 40) (d 41)) (hc 0 (d 26) (d 27) (d 42) (d 43)) (hc 0 (d 48) (d 49) (d 56)
    (d 57)) (hc 0 (d 50) (d 51) (d 58) (d 59))) (hc 0 (hc 0 (d 28) (d 29) (d 44) (d 45)) (hc 0 (d 30) (d 31) (d 46)
    (d 47)) (hc 0 (d 52) (d 53) (d 60) (d 61)) (hc 0 (d 54) (d 55) (d 62) (d 63))) := by
  change d 0 = _
  simp only [hc]
  try ring

private theorem co1 (d : Nat → K) : coeffs d 1 = hc 0 (hc 0 (hc 1 (d 0) (d 1) (d 8) (d 9)) (hc 1 (d 2) (d 3)
    (d 10) (d 11)) (hc 1 (d 16) (d 17) (d 32) (d 33)) (hc 1 (d 18) (d 19) (d 34) (d 35))) (hc 0 (hc 1 (d 4) (d 5)
    (d 12) (d 13)) (hc 1 (d 6) (d 7) (d 14) (d 15)) (hc 1 (d 20) (d 21) (d 36) (d 37)) (hc 1 (d 22) (d 23) (d 38)
    (d 39))) (hc 0 (hc 1 (d 24) (d 25) (d 40) (d 41)) (hc 1 (d 26) (d 27) (d 42) (d 43)) (hc 1 (d 48) (d 49) (d 56)
    (d 57)) (hc 1 (d 50) (d 51) (d 58) (d 59))) (hc 0 (hc 1 (d 28) (d 29) (d 44) (d 45)) (hc 1 (d 30) (d 31) (d 46)
    (d 47)) (hc 1 (d 52) (d 53) (d 60) (d 61)) (hc 1 (d 54) (d 55) (d 62) (d 63))) := by
  change d 8 = _
  simp only [hc]
  try ring

private theorem co2 (d : Nat → K) : coeffs d 2 = hc 0 (hc 0 (hc 2 (d 0) (d 1) (d 8) (d 9)) (hc 2 (d 2) (d 3)
    (d 10) (d 11)) (hc 2 (d 16) (d 17) (d 32) (d 33)) (hc 2 (d 18) (d 19) (d 34) (d 35))) (hc 0 (hc 2 (d 4) (d 5)
    (d 12) (d 13)) (hc 2 (d 6) (d 7) (d 14) (d 15)) (hc 2 (d 20) (d 21) (d 36) (d 37)) (hc 2 (d 22) (d 23) (d 38)
    (d 39))) (hc 0 (hc 2 (d 24) (d 25) (d 40) (d 41)) (hc 2 (d 26) (d 27) (d 42) (d 43)) (hc 2 (d 48) (d 49) (d 56)
    (d 57)) (hc 2 (d 50) (d 51) (d 58) (d 59))) (hc 0 (hc 2 (d 28) (d 29) (d 44) (d 45)) (hc 2 (d 30) (d 31) (d 46)
    (d 47)) (hc 2 (d 52) (d 53) (d 60) (d 61)) (hc 2 (d 54) (d 55) (d 62) (d 63))) := by
  change 3*(-d 0 + d 1) - 2*d 8 - d 9 = _
  simp only [hc]
  try ring

private theorem co3 (d : Nat → K) : coeffs d 3 = hc 0 (hc 0 (hc 3 (d 0) (d 1) (d 8) (d 9)) (hc 3 (d 2) (d 3)
    (d 10) (d 11)) (hc 3 (d 16) (d 17) (d 32) (d 33)) (hc 3 (d 18) (d 19) (d 34) (d 35))) (hc 0 (hc 3 (d 4) (d 5)
    (d 12) (d 13)) (hc 3 (d 6) (d 7) (d 14) (d 15)) (hc 3 (d 20) (d 21) (d 36) (d 37)) (hc 3 (d 22) (d 23) (d 38)
    (d 39))) (hc 0 (hc 3 (d 24) (d 25) (d 40) (d 41)) (hc 3 (d 26) (d 27) (d 42) (d 43)) (hc 3 (d 48) (d 49) (d 56)
    (d 57)) (hc 3 (d 50) (d 51) (d 58) (d 59))) (hc 0 (hc 3 (d 28) (d 29) (d 44) (d 45)) (hc 3 (d 30) (d 31) (d 46)
    (d 47)) (hc 3 (d 52) (d 53) (d 60) (d 61)) (hc 3 (d 54) (d 55) (d 62) (d 63))) := by
  change 2*(d 0 - d 1) + d 8 + d 9 = _
  simp only [hc]
  try ring

private theorem co4 (d : Nat → K) : coeffs d 4 = hc 0 (hc 1 (hc 0 (d 0) (d 1) (d 8) (d 9)) (hc 0 (d 2) (d 3)
    (d 10) (d 11)) (hc 0 (d 16) (d 17) (d 32) (d 33)) (hc 0 (d 18) (d 19) (d 34) (d 35))) (hc 1 (hc 0 (d 4) (d 5)
    (d 12) (d 13)) (hc 0 (d 6) (d 7) (d 14) (d 15)) (hc 0 (d 20) (d 21) (d 36) (d 37)) (hc 0 (d 22) (d 23) (d 38)
    (d 39))) (hc 1 (hc 0 (d 24) (d 25) (d 40) (d 41)) (hc 0 (d 26) (d 27) (d 42) (d 43)) (hc 0 (d 48) (d 49) (d 56)
    (d 57)) (hc 0 (d 50) (d 51) (d 58) (d 59))) (hc 1 (hc 0 (d 28) (d 29) (d 44) (d 45)) (hc 0 (d 30) (d 31) (d 46)
    (d 47)) (hc 0 (d 52) (d 53) (d 60) (d 61)) (hc 0 (d 54) (d 55) (d 62) (d 63))) := by
  change d 16 = _
  simp only [hc]
  try ring

private theorem co5 (d : Nat → K) : coeffs d 5 = hc 0 (hc 1 (hc 1 (d 0) (d 1) (d 8) (d 9)) (hc 1 (d 2) (d 3)
    (d 10) (d 11)) (hc 1 (d 16) (d 17) (d 32) (d 33)) (hc 1 (d 18) (d 19) (d 34) (d 35))) (hc 1 (hc 1 (d 4) (d 5)
    (d 12) (d 13)) (hc 1 (d 6) (d 7) (d 14) (d 15)) (hc 1 (d 20) (d 21) (d 36) (d 37)) (hc 1 (d 22) (d 23) (d 38)
    (d 39))) (hc 1 (hc 1 (d 24) (d 25) (d 40) (d 41)) (hc 1 (d 26) (d 27) (d 42) (d 43)) (hc 1 (d 48) (d 49) (d 56)
    (d 57)) (hc 1 (d 50) (d 51) (d 58) (d 59))) (hc 1 (hc 1 (d 28) (d 29) (d 44) (d 45)) (hc 1 (d 30) (d 31) (d 46)
    (d 47)) (hc 1 (d 52) (d 53) (d 60) (d 61)) (hc 1 (d 54) (d 55) (d 62) (d 63))) := by
  change d 32 = _
  simp only [hc]
  try ring

private theorem co6 (d : Nat → K) : coeffs d 6 = hc 0 (hc 1 (hc 2 (d 0) (d 1) (d 8) (d 9)) (hc 2 (d 2) (d 3)
    (d 10) (d 11)) (hc 2 (d 16) (d 17) (d 32) (d 33)) (hc 2 (d 18) (d 19) (d 34) (d 35))) (hc 1 (hc 2 (d 4) (d 5)
    (d 12) (d 13)) (hc 2 (d 6) (d 7) (d 14) (d 15)) (hc 2 (d 20) (d 21) (d 36) (d 37)) (hc 2 (d 22) (d 23) (d 38)
    (d 39))) (hc 1 (hc 2 (d 24) (d 25) (d 40) (d 41)) (hc 2 (d 26) (d 27) (d 42) (d 43)) (hc 2 (d 48) (d 49) (d 56)
    (d 57)) (hc 2 (d 50) (d 51) (d 58) (d 59))) (hc 1 (hc 2 (d 28) (d 29) (d 44) (d 45)) (hc 2 (d 30) (d 31) (d 46)
    (d 47)) (hc 2 (d 52) (d 53) (d 60) (d 61)) (hc 2 (d 54) (d 55) (d 62) (d 63))) := by
  change 3*(-d 16 + d 17) - 2*d 32 - d 33 = _
  simp only [hc]
  try ring

private theorem co7 (d : Nat → K) : coeffs d 7 = hc 0 (hc 1 (hc 3 (d 0) (d 1) (d 8) (d 9)) (hc 3 (d 2) (d 3)
    (d 10) (d 11)) (hc 3 (d 16) (d 17) (d 32) (d 33)) (hc 3 (d 18) (d 19) (d 34) (d 35))) (hc 1 (hc 3 (d 4) (d 5)
    (d 12) (d 13)) (hc 3 (d 6) (d 7) (d 14) (d 15)) (hc 3 (d 20) (d 21) (d 36) (d 37)) (hc 3 (d 22) (d 23) (d 38)
    (d 39))) (hc 1 (hc 3 (d 24) (d 25) (d 40) (d 41)) (hc 3 (d 26) (d 27) (d 42) (d 43)) (hc 3 (d 48) (d 49) (d 56)
    (d 57)) (hc 3 (d 50) (d 51) (d 58) (d 59))) (hc 1 (hc 3 (d 28) (d 29) (d 44) (d 45)) (hc 3 (d 30) (d 31) (d 46)
    (d 47)) (hc 3 (d 52) (d 53) (d 60) (d 61)) (hc 3 (d 54) (d 55) (d 62) (d 63))) := by
  change 2*(d 16 - d 17) + d 32 + d 33 = _
  simp only [hc]
  try ring

private theorem co8 (d : Nat → K) : coeffs d 8 = hc 0 (hc 2 (hc 0 (d 0) (d 1) (d 8) (d 9)) (hc 0 (d 2) (d 3)
    (d 10) (d 11)) (hc 0 (d 16) (d 17) (d 32) (d 33)) (hc 0 (d 18) (d 19) (d 34) (d 35))) (hc 2 (hc 0 (d 4) (d 5)
    (d 12) (d 13)) (hc 0 (d 6) (d 7) (d 14) (d 15)) (hc 0 (d 20) (d 21) (d 36) (d 37)) (hc 0 (d 22) (d 23) (d 38)
    (d 39))) (hc 2 (hc 0 (d 24) (d 25) (d 40) (d 41)) (hc 0 (d 26) (d 27) (d 42) (d 43)) (hc 0 (d 48) (d 49) (d 56)
    (d 57)) (hc 0 (d 50) (d 51) (d 58) (d 59))) (hc 2 (hc 0 (d 28) (d 29) (d 44) (d 45)) (hc 0 (d 30) (d 31) (d 46)
    (d 47)) (hc 0 (d 52) (d 53) (d 60) (d 61)) (hc 0 (d 54) (d 55) (d 62) (d 63))) := by
  change 3*(-d 0 + d 2) - 2*d 16 - d 18 = _
  simp only [hc]
  try ring

private theorem co9 (d : Nat → K) : coeffs d 9 = hc 0 (hc 2 (hc 1 (d 0) (d 1) (d 8) (d 9)) (hc 1 (d 2) (d 3)
    (d 10) (d 11)) (hc 1 (d 16) (d 17) (d 32) (d 33)) (hc 1 (d 18) (d 19) (d 34) (d 35))) (hc 2 (hc 1 (d 4) (d 5)
    (d 12) (d 13)) (hc 1 (d 6) (d 7) (d 14) (d 15)) (hc 1 (d 20) (d 21) (d 36) (d 37)) (hc 1 (d 22) (d 23) (d 38)
    (d 39))) (hc 2 (hc 1 (d 24) (d 25) (d 40) (d 41)) (hc 1 (d 26) (d 27) (d 42) (d 43)) (hc 1 (d 48) (d 49) (d 56)
    (d 57)) (hc 1 (d 50) (d 51) (d 58) (d 59))) (hc 2 (hc 1 (d 28) (d 29) (d 44) (d 45)) (hc 1 (d 30) (d 31) (d 46)
    (d 47)) (hc 1 (d 52) (d 53) (d 60) (d 61)) (hc 1 (d 54) (d 55) (d 62) (d 63))) := by
  change 3*(-d 8 + d 10) - 2*d 32 - d 34 = _
  simp only [hc]
  try ring

private theorem co10 (d : Nat → K) : coeffs d 10 = hc 0 (hc 2 (hc 2 (d 0) (d 1) (d 8) (d 9)) (hc 2 (d 2) (d 3)
    (d 10) (d 11)) (hc 2 (d 16) (d 17) (d 32) (d 33)) (hc 2 (d 18) (d 19) (d 34) (d 35))) (hc 2 (hc 2 (d 4) (d 5)
    (d 12) (d 13)) (hc 2 (d 6) (d 7) (d 14) (d 15)) (hc 2 (d 20) (d 21) (d 36) (d 37)) (hc 2 (d 22) (d 23) (d 38)
    (d 39))) (hc 2 (hc 2 (d 24) (d 25) (d 40) (d 41)) (hc 2 (d 26) (d 27) (d 42) (d 43)) (hc 2 (d 48) (d 49) (d 56)
    (d 57)) (hc 2 (d 50) (d 51) (d 58) (d 59))) (hc 2 (hc 2 (d 28) (d 29) (d 44) (d 45)) (hc 2 (d 30) (d 31) (d 46)
    (d 47)) (hc 2 (d 52) (d 53) (d 60) (d 61)) (hc 2 (d 54) (d 55) (d 62) (d 63))) := by
  change 9*(d 0 - d 1 - d 2 + d 3) + 6*(d 8 - d 10 + d 16 - d 17) + 4*d 32 + 3*(d 9 - d 11 + d 18 - d 19) +
      2*(d 33 + d 34) + d 35 = _
  simp only [hc]
  try ring

private theorem co11 (d : Nat → K) : coeffs d 11 = hc 0 (hc 2 (hc 3 (d 0) (d 1) (d 8) (d 9)) (hc 3 (d 2) (d 3)
    (d 10) (d 11)) (hc 3 (d 16) (d 17) (d 32) (d 33)) (hc 3 (d 18) (d 19) (d 34) (d 35))) (hc 2 (hc 3 (d 4) (d 5)
    (d 12) (d 13)) (hc 3 (d 6) (d 7) (d 14) (d 15)) (hc 3 (d 20) (d 21) (d 36) (d 37)) (hc 3 (d 22) (d 23) (d 38)
    (d 39))) (hc 2 (hc 3 (d 24) (d 25) (d 40) (d 41)) (hc 3 (d 26) (d 27) (d 42) (d 43)) (hc 3 (d 48) (d 49) (d 56)
    (d 57)) (hc 3 (d 50) (d 51) (d 58) (d 59))) (hc 2 (hc 3 (d 28) (d 29) (d 44) (d 45)) (hc 3 (d 30) (d 31) (d 46)
    (d 47)) (hc 3 (d 52) (d 53) (d 60) (d 61)) (hc 3 (d 54) (d 55) (d 62) (d 63))) := by
  change 6*(-d 0 + d 1 + d 2 - d 3) + 4*(-d 16 + d 17) + 3*(-d 8 - d 9 + d 10 + d 11) + 2*(-d 18 + d 19 - d 32 -
      d 33) - d 34 - d 35 = _
  simp only [hc]
  try ring

private theorem co12 (d : Nat → K) : coeffs d 12 = hc 0 (hc 3 (hc 0 (d 0) (d 1) (d 8) (d 9)) (hc 0 (d 2) (d 3)
    (d 10) (d 11)) (hc 0 (d 16) (d 17) (d 32) (d 33)) (hc 0 (d 18) (d 19) (d 34) (d 35))) (hc 3 (hc 0 (d 4) (d 5)
    (d 12) (d 13)) (hc 0 (d 6) (d 7) (d 14) (d 15)) (hc 0 (d 20) (d 21) (d 36) (d 37)) (hc 0 (d 22) (d 23) (d 38)
    (d 39))) (hc 3 (hc 0 (d 24) (d 25) (d 40) (d 41)) (hc 0 (d 26) (d 27) (d 42) (d 43)) (hc 0 (d 48) (d 49) (d 56)
    (d 57)) (hc 0 (d 50) (d 51) (d 58) (d 59))) (hc 3 (hc 0 (d 28) (d 29) (d 44) (d 45)) (hc 0 (d 30) (d 31) (d 46)
    (d 47)) (hc 0 (d 52) (d 53) (d 60) (d 61)) (hc 0 (d 54) (d 55) (d 62) (d 63))) := by
  change 2*(d 0 - d 2) + d 16 + d 18 = _
  simp only [hc]
  try ring

private theorem co13 (d : Nat → K) : coeffs d 13 = hc 0 (hc 3 (hc 1 (d 0) (d 1) (d 8) (d 9)) (hc 1 (d 2) (d 3)
    (d 10) (d 11)) (hc 1 (d 16) (d 17) (d 32) (d 33)) (hc 1 (d 18) (d 19) (d 34) (d 35))) (hc 3 (hc 1 (d 4) (d 5)
    (d 12) (d 13)) (hc 1 (d 6) (d 7) (d 14) (d 15)) (hc 1 (d 20) (d 21) (d 36) (d 37)) (hc 1 (d 22) (d 23) (d 38)
    (d 39))) (hc 3 (hc 1 (d 24) (d 25) (d 40) (d 41)) (hc 1 (d 26) (d 27) (d 42) (d 43)) (hc 1 (d 48) (d 49) (d 56)
    (d 57)) (hc 1 (d 50) (d 51) (d 58) (d 59))) (hc 3 (hc 1 (d 28) (d 29) (d 44) (d 45)) (hc 1 (d 30) (d 31) (d 46)
    (d 47)) (hc 1 (d 52) (d 53) (d 60) (d 61)) (hc 1 (d 54) (d 55) (d 62) (d 63))) := by
  change 2*(d 8 - d 10) + d 32 + d 34 = _
  simp only [hc]
  try ring

private theorem co14 (d : Nat → K) : coeffs d 14 = hc 0 (hc 3 (hc 2 (d 0) (d 1) (d 8) (d 9)) (hc 2 (d 2) (d 3)
    (d 10) (d 11)) (hc 2 (d 16) (d 17) (d 32) (d 33)) (hc 2 (d 18) (d 19) (d 34) (d 35))) (hc 3 (hc 2 (d 4) (d 5)
    (d 12) (d 13)) (hc 2 (d 6) (d 7) (d 14) (d 15)) (hc 2 (d 20) (d 21) (d 36) (d 37)) (hc 2 (d 22) (d 23) (d 38)
    (d 39))) (hc 3 (hc 2 (d 24) (d 25) (d 40) (d 41)) (hc 2 (d 26) (d 27) (d 42) (d 43)) (hc 2 (d 48) (d 49) (d 56)
    (d 57)) (hc 2 (d 50) (d 51) (d 58) (d 59))) (hc 3 (hc 2 (d 28) (d 29) (d 44) (d 45)) (hc 2 (d 30) (d 31) (d 46)
    (d 47)) (hc 2 (d 52) (d 53) (d 60) (d 61)) (hc 2 (d 54) (d 55) (d 62) (d 63))) := by
  change 6*(-d 0 + d 1 + d 2 - d 3) + 4*(-d 8 + d 10) + 3*(-d 16 + d 17 - d 18 + d 19) + 2*(-d 9 + d 11 - d 32 -
      d 34) - d 33 - d 35 = _
  simp only [hc]
  try ring

private theorem co15 (d : Nat → K) : coeffs d 15 = hc 0 (hc 3 (hc 3 (d 0) (d 1) (d 8) (d 9)) (hc 3 (d 2) (d 3)
    (d 10) (d 11)) (hc 3 (d 16) (d 17) (d 32) (d 33)) (hc 3 (d 18) (d 19) (d 34) (d 35))) (hc 3 (hc 3 (d 4) (d 5)
    (d 12) (d 13)) (hc 3 (d 6) (d 7) (d 14) (d 15)) (hc 3 (d 20) (d 21) (d 36) (d 37)) (hc 3 (d 22) (d 23) (d 38)
    (d 39))) (hc 3 (hc 3 (d 24) (d 25) (d 40) (d 41)) (hc 3 (d 26) (d 27) (d 42) (d 43)) (hc 3 (d 48) (d 49) (d 56)
    (d 57)) (hc 3 (d 50) (d 51) (d 58) (d 59))) (hc 3 (hc 3 (d 28) (d 29) (d 44) (d 45)) (hc 3 (d 30) (d 31) (d 46)
    (d 47)) (hc 3 (d 52) (d 53) (d 60) (d 61)) (hc 3 (d 54) (d 55) (d 62) (d 63))) := by
  change 4*(d 0 - d 1 - d 2 + d 3) + 2*(d 8 + d 9 - d 10 - d 11 + d 16 - d 17 + d 18 - d 19) + d 32 + d 33 +
      d 34 + d 35 = _
  simp only [hc]
  try ring

private theorem co16 (d : Nat → K) : coeffs d 16 = hc 1 (hc 0 (hc 0 (d 0) (d 1) (d 8) (d 9)) (hc 0 (d 2) (d 3)
    (d 10) (d 11)) (hc 0 (d 16) (d 17) (d 32) (d 33)) (hc 0 (d 18) (d 19) (d 34) (d 35))) (hc 0 (hc 0 (d 4) (d 5)
    (d 12) (d 13)) (hc 0 (d 6) (d 7) (d 14) (d 15)) (hc 0 (d 20) (d 21) (d 36) (d 37)) (hc 0 (d 22) (d 23) (d 38)
    (d 39))) (hc 0 (hc 0 (d 24) (d 25) (d 40) (d 41)) (hc 0 (d 26) (d 27) (d 42) (d 43)) (hc 0 (d 48) (d 49) (d 56)
    (d 57)) (hc 0 (d 50) (d 51) (d 58) (d 59))) (hc 0 (hc 0 (d 28) (d 29) (d 44) (d 45)) (hc 0 (d 30) (d 31) (d 46)
    (d 47)) (hc 0 (d 52) (d 53) (d 60) (d 61)) (hc 0 (d 54) (d 55) (d 62) (d 63))) := by
  change d 24 = _
  simp only [hc]
  try ring

private theorem co17 (d : Nat → K) : coeffs d 17 = hc 1 (hc 0 (hc 1 (d 0) (d 1) (d 8) (d 9)) (hc 1 (d 2) (d 3)
    (d 10) (d 11)) (hc 1 (d 16) (d 17) (d 32) (d 33)) (hc 1 (d 18) (d 19) (d 34) (d 35))) (hc 0 (hc 1 (d 4) (d 5)
    (d 12) (d 13)) (hc 1 (d 6) (d 7) (d 14) (d 15)) (hc 1 (d 20) (d 21) (d 36) (d 37)) (hc 1 (d 22) (d 23) (d 38)
    (d 39))) (hc 0 (hc 1 (d 24) (d 25) (d 40) (d 41)) (hc 1 (d 26) (d 27) (d 42) (d 43)) (hc 1 (d 48) (d 49) (d 56)
    (d 57)) (hc 1 (d 50) (d 51) (d 58) (d 59))) (hc 0 (hc 1 (d 28) (d 29) (d 44) (d 45)) (hc 1 (d 30) (d 31) (d 46)
    (d 47)) (hc 1 (d 52) (d 53) (d 60) (d 61)) (hc 1 (d 54) (d 55) (d 62) (d 63))) := by
  change d 40 = _
  simp only [hc]
  try ring

private theorem co18 (d : Nat → K) : coeffs d 18 = hc 1 (hc 0 (hc 2 (d 0) (d 1) (d 8) (d 9)) (hc 2 (d 2) (d 3)
    (d 10) (d 11)) (hc 2 (d 16) (d 17) (d 32) (d 33)) (hc 2 (d 18) (d 19) (d 34) (d 35))) (hc 0 (hc 2 (d 4) (d 5)
    (d 12) (d 13)) (hc 2 (d 6) (d 7) (d 14) (d 15)) (hc 2 (d 20) (d 21) (d 36) (d 37)) (hc 2 (d 22) (d 23) (d 38)
    (d 39))) (hc 0 (hc 2 (d 24) (d 25) (d 40) (d 41)) (hc 2 (d 26) (d 27) (d 42) (d 43)) (hc 2 (d 48) (d 49) (d 56)
    (d 57)) (hc 2 (d 50) (d 51) (d 58) (d 59))) (hc 0 (hc 2 (d 28) (d 29) (d 44) (d 45)) (hc 2 (d 30) (d 31) (d 46)
    (d 47)) (hc 2 (d 52) (d 53) (d 60) (d 61)) (hc 2 (d 54) (d 55) (d 62) (d 63))) := by
  change 3*(-d 24 + d 25) - 2*d 40 - d 41 = _
  simp only [hc]
  try ring

private theorem co19 (d : Nat → K) : coeffs d 19 = hc 1 (hc 0 (hc 3 (d 0) (d 1) (d 8) (d 9)) (hc 3 (d 2) (d 3)
    (d 10) (d 11)) (hc 3 (d 16) (d 17) (d 32) (d 33)) (hc 3 (d 18) (d 19) (d 34) (d 35))) (hc 0 (hc 3 (d 4) (d 5)
    (d 12) (d 13)) (hc 3 (d 6) (d 7) (d 14) (d 15)) (hc 3 (d 20) (d 21) (d 36) (d 37)) (hc 3 (d 22) (d 23) (d 38)
    (d 39))) (hc 0 (hc 3 (d 24) (d 25) (d 40) (d 41)) (hc 3 (d 26) (d 27) (d 42) (d 43)) (hc 3 (d 48) (d 49) (d 56)
    (d 57)) (hc 3 (d 50) (d 51) (d 58) (d 59))) (hc 0 (hc 3 (d 28) (d 29) (d 44) (d 45)) (hc 3 (d 30) (d 31) (d 46)
    (d 47)) (hc 3 (d 52) (d 53) (d 60) (d 61)) (hc 3 (d 54) (d 55) (d 62) (d 63))) := by
  change 2*(d 24 - d 25) + d 40 + d 41 = _
  simp only [hc]
  try ring

private theorem co20 (d : Nat → K) : coeffs d 20 = hc 1 (hc 1 (hc 0 (d 0) (d 1) (d 8) (d 9)) (hc 0 (d 2) (d 3)
    (d 10) (d 11)) (hc 0 (d 16) (d 17) (d 32) (d 33)) (hc 0 (d 18) (d 19) (d 34) (d 35))) (hc 1 (hc 0 (d 4) (d 5)
    (d 12) (d 13)) (hc 0 (d 6) (d 7) (d 14) (d 15)) (hc 0 (d 20) (d 21) (d 36) (d 37)) (hc 0 (d 22) (d 23) (d 38)
    (d 39))) (hc 1 (hc 0 (d 24) (d 25) (d 40) (d 41)) (hc 0 (d 26) (d 27) (d 42) (d 43)) (hc 0 (d 48) (d 49) (d 56)
    (d 57)) (hc 0 (d 50) (d 51) (d 58) (d 59))) (hc 1 (hc 0 (d 28) (d 29) (d 44) (d 45)) (hc 0 (d 30) (d 31) (d 46)
    (d 47)) (hc 0 (d 52) (d 53) (d 60) (d 61)) (hc 0 (d 54) (d 55) (d 62) (d 63))) := by
  change d 48 = _
  simp only [hc]
  try ring

private theorem co21 (d : Nat → K) : coeffs d 21 = hc 1 (hc 1 (hc 1 (d 0) (d 1) (d 8) (d 9)) (hc 1 (d 2) (d 3)
    (d 10) (d 11)) (hc 1 (d 16) (d 17) (d 32) (d 33)) (hc 1 (d 18) (d 19) (d 34) (d 35))) (hc 1 (hc 1 (d 4) (d 5)
    (d 12) (d 13)) (hc 1 (d 6) (d 7) (d 14) (d 15)) (hc 1 (d 20) (d 21) (d 36) (d 37)) (hc 1 (d 22) (d 23) (d 38)
    (d 39))) (hc 1 (hc 1 (d 24) (d 25) (d 40) (d 41)) (hc 1 (d 26) (d 27) (d 42) (d 43)) (hc 1 (d 48) (d 49) (d 56)
    (d 57)) (hc 1 (d 50) (d 51) (d 58) (d 59))) (hc 1 (hc 1 (d 28) (d 29) (d 44) (d 45)) (hc 1 (d 30) (d 31) (d 46)
    (d 47)) (hc 1 (d 52) (d 53) (d 60) (d 61)) (hc 1 (d 54) (d 55) (d 62) (d 63))) := by
  change d 56 = _
  simp only [hc]
  try ring

private theorem co22 (d : Nat → K) : coeffs d 22 = hc 1 (hc 1 (hc 2 (d 0) (d 1) (d 8) (d 9)) (hc 2 (d 2) (d 3)
    (d 10) (d 11)) (hc 2 (d 16) (d 17) (d 32) (d 33)) (hc 2 (d 18) (d 19) (d 34) (d 35))) (hc 1 (hc 2 (d 4) (d 5)
    (d 12) (d 13)) (hc 2 (d 6) (d 7) (d 14) (d 15)) (hc 2 (d 20) (d 21) (d 36) (d 37)) (hc 2 (d 22) (d 23) (d 38)
    (d 39))) (hc 1 (hc 2 (d 24) (d 25) (d 40) (d 41)) (hc 2 (d 26) (d 27) (d 42) (d 43)) (hc 2 (d 48) (d 49) (d 56)
    (d 57)) (hc 2 (d 50) (d 51) (d 58) (d 59))) (hc 1 (hc 2 (d 28) (d 29) (d 44) (d 45)) (hc 2 (d 30) (d 31) (d 46)
    (d 47)) (hc 2 (d 52) (d 53) (d 60) (d 61)) (hc 2 (d 54) (d 55) (d 62) (d 63))) := by
  change 3*(-d 48 + d 49) - 2*d 56 - d 57 = _
  simp only [hc]
  try ring

private theorem co23 (d : Nat → K) : coeffs d 23 = hc 1 (hc 1 (hc 3 (d 0) (d 1) (d 8) (d 9)) (hc 3 (d 2) (d 3)
    (d 10) (d 11)) (hc 3 (d 16) (d 17) (d 32) (d 33)) (hc 3 (d 18) (d 19) (d 34) (d 35))) (hc 1 (hc 3 (d 4) (d 5)
    (d 12) (d 13)) (hc 3 (d 6) (d 7) (d 14) (d 15)) (hc 3 (d 20) (d 21) (d 36) (d 37)) (hc 3 (d 22) (d 23) (d 38)
    (d 39))) (hc 1 (hc 3 (d 24) (d 25) (d 40) (d 41)) (hc 3 (d 26) (d 27) (d 42) (d 43)) (hc 3 (d 48) (d 49) (d 56)
    (d 57)) (hc 3 (d 50) (d 51) (d 58) (d 59))) (hc 1 (hc 3 (d 28) (d 29) (d 44) (d 45)) (hc 3 (d 30) (d 31) (d 46)
    (d 47)) (hc 3 (d 52) (d 53) (d 60) (d 61)) (hc 3 (d 54) (d 55) (d 62) (d 63))) := by
  change 2*(d 48 - d 49) + d 56 + d 57 = _
  simp only [hc]
  try ring

private theorem co24 (d : Nat → K) : coeffs d 24 = hc 1 (hc 2 (hc 0 (d 0) (d 1) (d 8) (d 9)) (hc 0 (d 2) (d 3)
    (d 10) (d 11)) (hc 0 (d 16) (d 17) (d 32) (d 33)) (hc 0 (d 18) (d 19) (d 34) (d 35))) (hc 2 (hc 0 (d 4) (d 5)
    (d 12) (d 13)) (hc 0 (d 6) (d 7) (d 14) (d 15)) (hc 0 (d 20) (d 21) (d 36) (d 37)) (hc 0 (d 22) (d 23) (d 38)
    (d 39))) (hc 2 (hc 0 (d 24) (d 25) (d 40) (d 41)) (hc 0 (d 26) (d 27) (d 42) (d 43)) (hc 0 (d 48) (d 49) (d 56)
    (d 57)) (hc 0 (d 50) (d 51) (d 58) (d 59))) (hc 2 (hc 0 (d 28) (d 29) (d 44) (d 45)) (hc 0 (d 30) (d 31) (d 46)
    (d 47)) (hc 0 (d 52) (d 53) (d 60) (d 61)) (hc 0 (d 54) (d 55) (d 62) (d 63))) := by
  change 3*(-d 24 + d 26) - 2*d 48 - d 50 = _
  simp only [hc]
  try ring

private theorem co25 (d : Nat → K) : coeffs d 25 = hc 1 (hc 2 (hc 1 (d 0) (d 1) (d 8) (d 9)) (hc 1 (d 2) (d 3)
    (d 10) (d 11)) (hc 1 (d 16) (d 17) (d 32) (d 33)) (hc 1 (d 18) (d 19) (d 34) (d 35))) (hc 2 (hc 1 (d 4) (d 5)
    (d 12) (d 13)) (hc 1 (d 6) (d 7) (d 14) (d 15)) (hc 1 (d 20) (d 21) (d 36) (d 37)) (hc 1 (d 22) (d 23) (d 38)
    (d 39))) (hc 2 (hc 1 (d 24) (d 25) (d 40) (d 41)) (hc 1 (d 26) (d 27) (d 42) (d 43)) (hc 1 (d 48) (d 49) (d 56)
    (d 57)) (hc 1 (d 50) (d 51) (d 58) (d 59))) (hc 2 (hc 1 (d 28) (d 29) (d 44) (d 45)) (hc 1 (d 30) (d 31) (d 46)
    (d 47)) (hc 1 (d 52) (d 53) (d 60) (d 61)) (hc 1 (d 54) (d 55) (d 62) (d 63))) := by
  change 3*(-d 40 + d 42) - 2*d 56 - d 58 = _
  simp only [hc]
  try ring

private theorem co26 (d : Nat → K) : coeffs d 26 = hc 1 (hc 2 (hc 2 (d 0) (d 1) (d 8) (d 9)) (hc 2 (d 2) (d 3)
    (d 10) (d 11)) (hc 2 (d 16) (d 17) (d 32) (d 33)) (hc 2 (d 18) (d 19) (d 34) (d 35))) (hc 2 (hc 2 (d 4) (d 5)
    (d 12) (d 13)) (hc 2 (d 6) (d 7) (d 14) (d 15)) (hc 2 (d 20) (d 21) (d 36) (d 37)) (hc 2 (d 22) (d 23) (d 38)
    (d 39))) (hc 2 (hc 2 (d 24) (d 25) (d 40) (d 41)) (hc 2 (d 26) (d 27) (d 42) (d 43)) (hc 2 (d 48) (d 49) (d 56)
    (d 57)) (hc 2 (d 50) (d 51) (d 58) (d 59))) (hc 2 (hc 2 (d 28) (d 29) (d 44) (d 45)) (hc 2 (d 30) (d 31) (d 46)
    (d 47)) (hc 2 (d 52) (d 53) (d 60) (d 61)) (hc 2 (d 54) (d 55) (d 62) (d 63))) := by
  change 9*(d 24 - d 25 - d 26 + d 27) + 6*(d 40 - d 42 + d 48 - d 49) + 4*d 56 + 3*(d 41 - d 43 + d 50 - d 51)
      + 2*(d 57 + d 58) + d 59 = _
  simp only [hc]
  try ring

private theorem co27 (d : Nat → K) : coeffs d 27 = hc 1 (hc 2 (hc 3 (d 0) (d 1) (d 8) (d 9)) (hc 3 (d 2) (d 3)
    (d 10) (d 11)) (hc 3 (d 16) (d 17) (d 32) (d 33)) (hc 3 (d 18) (d 19) (d 34) (d 35))) (hc 2 (hc 3 (d 4) (d 5)
    (d 12) (d 13)) (hc 3 (d 6) (d 7) (d 14) (d 15)) (hc 3 (d 20) (d 21) (d 36) (d 37)) (hc 3 (d 22) (d 23) (d 38)
    (d 39))) (hc 2 (hc 3 (d 24) (d 25) (d 40) (d 41)) (hc 3 (d 26) (d 27) (d 42) (d 43)) (hc 3 (d 48) (d 49) (d 56)
    (d 57)) (hc 3 (d 50) (d 51) (d 58) (d 59))) (hc 2 (hc 3 (d 28) (d 29) (d 44) (d 45)) (hc 3 (d 30) (d 31) (d 46)
    (d 47)) (hc 3 (d 52) (d 53) (d 60) (d 61)) (hc 3 (d 54) (d 55) (d 62) (d 63))) := by
  change 6*(-d 24 + d 25 + d 26 - d 27) + 4*(-d 48 + d 49) + 3*(-d 40 - d 41 + d 42 + d 43) + 2*(-d 50 + d 51 -
      d 56 - d 57) - d 58 - d 59 = _
  simp only [hc]
  try ring

private theorem co28 (d : Nat → K) : coeffs d 28 = hc 1 (hc 3 (hc 0 (d 0) (d 1) (d 8) (d 9)) (hc 0 (d 2) (d 3)
    (d 10) (d 11)) (hc 0 (d 16) (d 17) (d 32) (d 33)) (hc 0 (d 18) (d 19) (d 34) (d 35))) (hc 3 (hc 0 (d 4) (d 5)
    (d 12) (d 13)) (hc 0 (d 6) (d 7) (d 14) (d 15)) (hc 0 (d 20) (d 21) (d 36) (d 37)) (hc 0 (d 22) (d 23) (d 38)
    (d 39))) (hc 3 (hc 0 (d 24) (d 25) (d 40) (d 41)) (hc 0 (d 26) (d 27) (d 42) (d 43)) (hc 0 (d 48) (d 49) (d 56)
    (d 57)) (hc 0 (d 50) (d 51) (d 58) (d 59))) (hc 3 (hc 0 (d 28) (d 29) (d 44) (d 45)) (hc 0 (d 30) (d 31) (d 46)
    (d 47)) (hc 0 (d 52) (d 53) (d 60) (d 61)) (hc 0 (d 54) (d 55) (d 62) (d 63))) := by
  change 2*(d 24 - d 26) + d 48 + d 50 = _
  simp only [hc]
  try ring

private theorem co29 (d : Nat → K) : coeffs d 29 = hc 1 (hc 3 (hc 1 (d 0) (d 1) (d 8) (d 9)) (hc 1 (d 2) (d 3)
    (d 10) (d 11)) (hc 1 (d 16) (d 17) (d 32) (d 33)) (hc 1 (d 18) (d 19) (d 34) (d 35))) (hc 3 (hc 1 (d 4) (d 5)
    (d 12) (d 13)) (hc 1 (d 6) (d 7) (d 14) (d 15)) (hc 1 (d 20) (d 21) (d 36) (d 37)) (hc 1 (d 22) (d 23) (d 38)
    (d 39))) (hc 3 (hc 1 (d 24) (d 25) (d 40) (d 41)) (hc 1 (d 26) (d 27) (d 42) (d 43)) (hc 1 (d 48) (d 49) (d 56)
    (d 57)) (hc 1 (d 50) (d 51) (d 58) (d 59))) (hc 3 (hc 1 (d 28) (d 29) (d 44) (d 45)) (hc 1 (d 30) (d 31) (d 46)
    (d 47)) (hc 1 (d 52) (d 53) (d 60) (d 61)) (hc 1 (d 54) (d 55) (d 62) (d 63))) := by
  change 2*(d 40 - d 42) + d 56 + d 58 = _
  simp only [hc]
  try ring

private theorem co30 (d : Nat → K) : coeffs d 30 = hc 1 (hc 3 (hc 2 (d 0) (d 1) (d 8) (d 9)) (hc 2 (d 2) (d 3)
    (d 10) (d 11)) (hc 2 (d 16) (d 17) (d 32) (d 33)) (hc 2 (d 18) (d 19) (d 34) (d 35))) (hc 3 (hc 2 (d 4) (d 5)
    (d 12) (d 13)) (hc 2 (d 6) (d 7) (d 14) (d 15)) (hc 2 (d 20) (d 21) (d 36) (d 37)) (hc 2 (d 22) (d 23) (d 38)
    (d 39))) (hc 3 (hc 2 (d 24) (d 25) (d 40) (d 41)) (hc 2 (d 26) (d 27) (d 42) (d 43)) (hc 2 (d 48) (d 49) (d 56)
    (d 57)) (hc 2 (d 50) (d 51) (d 58) (d 59))) (hc 3 (hc 2 (d 28) (d 29) (d 44) (d 45)) (hc 2 (d 30) (d 31) (d 46)
    (d 47)) (hc 2 (d 52) (d 53) (d 60) (d 61)) (hc 2 (d 54) (d 55) (d 62) (d 63))) := by
  change 6*(-d 24 + d 25 + d 26 - d 27) + 4*(-d 40 + d 42) + 3*(-d 48 + d 49 - d 50 + d 51) + 2*(-d 41 + d 43 -
      d 56 - d 58) - d 57 - d 59 = _
  simp only [hc]
  try ring

private theorem co31 (d : Nat → K) : coeffs d 31 = hc 1 (hc 3 (hc 3 (d 0) (d 1) (d 8) (d 9)) (hc 3 (d 2) (d 3)
    (d 10) (d 11)) (hc 3 (d 16) (d 17) (d 32) (d 33)) (hc 3 (d 18) (d 19) (d 34) (d 35))) (hc 3 (hc 3 (d 4) (d 5)
    (d 12) (d 13)) (hc 3 (d 6) (d 7) (d 14) (d 15)) (hc 3 (d 20) (d 21) (d 36) (d 37)) (hc 3 (d 22) (d 23) (d 38)
    (d 39))) (hc 3 (hc 3 (d 24) (d 25) (d 40) (d 41)) (hc 3 (d 26) (d 27) (d 42) (d 43)) (hc 3 (d 48) (d 49) (d 56)
    (d 57)) (hc 3 (d 50) (d 51) (d 58) (d 59))) (hc 3 (hc 3 (d 28) (d 29) (d 44) (d 45)) (hc 3 (d 30) (d 31) (d 46)
    (d 47)) (hc 3 (d 52) (d 53) (d 60) (d 61)) (hc 3 (d 54) (d 55) (d 62) (d 63))) := by
  change 4*(d 24 - d 25 - d 26 + d 27) + 2*(d 40 + d 41 - d 42 - d 43 + d 48 - d 49 + d 50 - d 51) + d 56 + d 57
      + d 58 + d 59 = _
  simp only [hc]
  try ring

private theorem co32 (d : Nat → K) : coeffs d 32 = hc 2 (hc 0 (hc 0 (d 0) (d 1) (d 8) (d 9)) (hc 0 (d 2) (d 3)
    (d 10) (d 11)) (hc 0 (d 16) (d 17) (d 32) (d 33)) (hc 0 (d 18) (d 19) (d 34) (d 35))) (hc 0 (hc 0 (d 4) (d 5)
    (d 12) (d 13)) (hc 0 (d 6) (d 7) (d 14) (d 15)) (hc 0 (d 20) (d 21) (d 36) (d 37)) (hc 0 (d 22) (d 23) (d 38)
    (d 39))) (hc 0 (hc 0 (d 24) (d 25) (d 40) (d 41)) (hc 0 (d 26) (d 27) (d 42) (d 43)) (hc 0 (d 48) (d 49) (d 56)
    (d 57)) (hc 0 (d 50) (d 51) (d 58) (d 59))) (hc 0 (hc 0 (d 28) (d 29) (d 44) (d 45)) (hc 0 (d 30) (d 31) (d 46)
    (d 47)) (hc 0 (d 52) (d 53) (d 60) (d 61)) (hc 0 (d 54) (d 55) (d 62) (d 63))) := by
  change 3*(-d 0 + d 4) - 2*d 24 - d 28 = _
  simp only [hc]
  try ring

private theorem co33 (d : Nat → K) : coeffs d 33 = hc 2 (hc 0 (hc 1 (d 0) (d 1) (d 8) (d 9)) (hc 1 (d 2) (d 3)
    (d 10) (d 11)) (hc 1 (d 16) (d 17) (d 32) (d 33)) (hc 1 (d 18) (d 19) (d 34) (d 35))) (hc 0 (hc 1 (d 4) (d 5)
    (d 12) (d 13)) (hc 1 (d 6) (d 7) (d 14) (d 15)) (hc 1 (d 20) (d 21) (d 36) (d 37)) (hc 1 (d 22) (d 23) (d 38)
    (d 39))) (hc 0 (hc 1 (d 24) (d 25) (d 40) (d 41)) (hc 1 (d 26) (d 27) (d 42) (d 43)) (hc 1 (d 48) (d 49) (d 56)
    (d 57)) (hc 1 (d 50) (d 51) (d 58) (d 59))) (hc 0 (hc 1 (d 28) (d 29) (d 44) (d 45)) (hc 1 (d 30) (d 31) (d 46)
    (d 47)) (hc 1 (d 52) (d 53) (d 60) (d 61)) (hc 1 (d 54) (d 55) (d 62) (d 63))) := by
  change 3*(-d 8 + d 12) - 2*d 40 - d 44 = _
  simp only [hc]
  try ring

private theorem co34 (d : Nat → K) : coeffs d 34 = hc 2 (hc 0 (hc 2 (d 0) (d 1) (d 8) (d 9)) (hc 2 (d 2) (d 3)
    (d 10) (d 11)) (hc 2 (d 16) (d 17) (d 32) (d 33)) (hc 2 (d 18) (d 19) (d 34) (d 35))) (hc 0 (hc 2 (d 4) (d 5)
    (d 12) (d 13)) (hc 2 (d 6) (d 7) (d 14) (d 15)) (hc 2 (d 20) (d 21) (d 36) (d 37)) (hc 2 (d 22) (d 23) (d 38)
    (d 39))) (hc 0 (hc 2 (d 24) (d 25) (d 40) (d 41)) (hc 2 (d 26) (d 27) (d 42) (d 43)) (hc 2 (d 48) (d 49) (d 56)
    (d 57)) (hc 2 (d 50) (d 51) (d 58) (d 59))) (hc 0 (hc 2 (d 28) (d 29) (d 44) (d 45)) (hc 2 (d 30) (d 31) (d 46)
    (d 47)) (hc 2 (d 52) (d 53) (d 60) (d 61)) (hc 2 (d 54) (d 55) (d 62) (d 63))) := by
  change 9*(d 0 - d 1 - d 4 + d 5) + 6*(d 8 - d 12 + d 24 - d 25) + 4*d 40 + 3*(d 9 - d 13 + d 28 - d 29) +
      2*(d 41 + d 44) + d 45 = _
  simp only [hc]
  try ring

private theorem co35 (d : Nat → K) : coeffs d 35 = hc 2 (hc 0 (hc 3 (d 0) (d 1) (d 8) (d 9)) (hc 3 (d 2) (d 3)
    (d 10) (d 11)) (hc 3 (d 16) (d 17) (d 32) (d 33)) (hc 3 (d 18) (d 19) (d 34) (d 35))) (hc 0 (hc 3 (d 4) (d 5)
    (d 12) (d 13)) (hc 3 (d 6) (d 7) (d 14) (d 15)) (hc 3 (d 20) (d 21) (d 36) (d 37)) (hc 3 (d 22) (d 23) (d 38)
    (d 39))) (hc 0 (hc 3 (d 24) (d 25) (d 40) (d 41)) (hc 3 (d 26) (d 27) (d 42) (d 43)) (hc 3 (d 48) (d 49) (d 56)
    (d 57)) (hc 3 (d 50) (d 51) (d 58) (d 59))) (hc 0 (hc 3 (d 28) (d 29) (d 44) (d 45)) (hc 3 (d 30) (d 31) (d 46)
    (d 47)) (hc 3 (d 52) (d 53) (d 60) (d 61)) (hc 3 (d 54) (d 55) (d 62) (d 63))) := by
  change 6*(-d 0 + d 1 + d 4 - d 5) + 4*(-d 24 + d 25) + 3*(-d 8 - d 9 + d 12 + d 13) + 2*(-d 28 + d 29 - d 40 -
      d 41) - d 44 - d 45 = _
  simp only [hc]
  try ring

private theorem co36 (d : Nat → K) : coeffs d 36 = hc 2 (hc 1 (hc 0 (d 0) (d 1) (d 8) (d 9)) (hc 0 (d 2) (d 3)
    (d 10) (d 11)) (hc 0 (d 16) (d 17) (d 32) (d 33)) (hc 0 (d 18) (d 19) (d 34) (d 35))) (hc 1 (hc 0 (d 4) (d 5)
    (d 12) (d 13)) (hc 0 (d 6) (d 7) (d 14) (d 15)) (hc 0 (d 20) (d 21) (d 36) (d 37)) (hc 0 (d 22) (d 23) (d 38)
    (d 39))) (hc 1 (hc 0 (d 24) (d 25) (d 40) (d 41)) (hc 0 (d 26) (d 27) (d 42) (d 43)) (hc 0 (d 48) (d 49) (d 56)
    (d 57)) (hc 0 (d 50) (d 51) (d 58) (d 59))) (hc 1 (hc 0 (d 28) (d 29) (d 44) (d 45)) (hc 0 (d 30) (d 31) (d 46)
    (d 47)) (hc 0 (d 52) (d 53) (d 60) (d 61)) (hc 0 (d 54) (d 55) (d 62) (d 63))) := by
  change 3*(-d 16 + d 20) - 2*d 48 - d 52 = _
  simp only [hc]
  try ring

private theorem co37 (d : Nat → K) : coeffs d 37 = hc 2 (hc 1 (hc 1 (d 0) (d 1) (d 8) (d 9)) (hc 1 (d 2) (d 3)
    (d 10) (d 11)) (hc 1 (d 16) (d 17) (d 32) (d 33)) (hc 1 (d 18) (d 19) (d 34) (d 35))) (hc 1 (hc 1 (d 4) (d 5)
    (d 12) (d 13)) (hc 1 (d 6) (d 7) (d 14) (d 15)) (hc 1 (d 20) (d 21) (d 36) (d 37)) (hc 1 (d 22) (d 23) (d 38)
    (d 39))) (hc 1 (hc 1 (d 24) (d 25) (d 40) (d 41)) (hc 1 (d 26) (d 27) (d 42) (d 43)) (hc 1 (d 48) (d 49) (d 56)
    (d 57)) (hc 1 (d 50) (d 51) (d 58) (d 59))) (hc 1 (hc 1 (d 28) (d 29) (d 44) (d 45)) (hc 1 (d 30) (d 31) (d 46)
    (d 47)) (hc 1 (d 52) (d 53) (d 60) (d 61)) (hc 1 (d 54) (d 55) (d 62) (d 63))) := by
  change 3*(-d 32 + d 36) - 2*d 56 - d 60 = _
  simp only [hc]
  try ring

private theorem co38 (d : Nat → K) : coeffs d 38 = hc 2 (hc 1 (hc 2 (d 0) (d 1) (d 8) (d 9)) (hc 2 (d 2) (d 3)
    (d 10) (d 11)) (hc 2 (d 16) (d 17) (d 32) (d 33)) (hc 2 (d 18) (d 19) (d 34) (d 35))) (hc 1 (hc 2 (d 4) (d 5)
    (d 12) (d 13)) (hc 2 (d 6) (d 7) (d 14) (d 15)) (hc 2 (d 20) (d 21) (d 36) (d 37)) (hc 2 (d 22) (d 23) (d 38)
    (d 39))) (hc 1 (hc 2 (d 24) (d 25) (d 40) (d 41)) (hc 2 (d 26) (d 27) (d 42) (d 43)) (hc 2 (d 48) (d 49) (d 56)
    (d 57)) (hc 2 (d 50) (d 51) (d 58) (d 59))) (hc 1 (hc 2 (d 28) (d 29) (d 44) (d 45)) (hc 2 (d 30) (d 31) (d 46)
    (d 47)) (hc 2 (d 52) (d 53) (d 60) (d 61)) (hc 2 (d 54) (d 55) (d 62) (d 63))) := by
  change 9*(d 16 - d 17 - d 20 + d 21) + 6*(d 32 - d 36 + d 48 - d 49) + 4*d 56 + 3*(d 33 - d 37 + d 52 - d 53)
      + 2*(d 57 + d 60) + d 61 = _
  simp only [hc]
  try ring

private theorem co39 (d : Nat → K) : coeffs d 39 = hc 2 (hc 1 (hc 3 (d 0) (d 1) (d 8) (d 9)) (hc 3 (d 2) (d 3)
    (d 10) (d 11)) (hc 3 (d 16) (d 17) (d 32) (d 33)) (hc 3 (d 18) (d 19) (d 34) (d 35))) (hc 1 (hc 3 (d 4) (d 5)
    (d 12) (d 13)) (hc 3 (d 6) (d 7) (d 14) (d 15)) (hc 3 (d 20) (d 21) (d 36) (d 37)) (hc 3 (d 22) (d 23) (d 38)
    (d 39))) (hc 1 (hc 3 (d 24) (d 25) (d 40) (d 41)) (hc 3 (d 26) (d 27) (d 42) (d 43)) (hc 3 (d 48) (d 49) (d 56)
    (d 57)) (hc 3 (d 50) (d 51) (d 58) (d 59))) (hc 1 (hc 3 (d 28) (d 29) (d 44) (d 45)) (hc 3 (d 30) (d 31) (d 46)
    (d 47)) (hc 3 (d 52) (d 53) (d 60) (d 61)) (hc 3 (d 54) (d 55) (d 62) (d 63))) := by
  change 6*(-d 16 + d 17 + d 20 - d 21) + 4*(-d 48 + d 49) + 3*(-d 32 - d 33 + d 36 + d 37) + 2*(-d 52 + d 53 -
      d 56 - d 57) - d 60 - d 61 = _
  simp only [hc]
  try ring

private theorem co40 (d : Nat → K) : coeffs d 40 = hc 2 (hc 2 (hc 0 (d 0) (d 1) (d 8) (d 9)) (hc 0 (d 2) (d 3)
    (d 10) (d 11)) (hc 0 (d 16) (d 17) (d 32) (d 33)) (hc 0 (d 18) (d 19) (d 34) (d 35))) (hc 2 (hc 0 (d 4) (d 5)
    (d 12) (d 13)) (hc 0 (d 6) (d 7) (d 14) (d 15)) (hc 0 (d 20) (d 21) (d 36) (d 37)) (hc 0 (d 22) (d 23) (d 38)
    (d 39))) (hc 2 (hc 0 (d 24) (d 25) (d 40) (d 41)) (hc 0 (d 26) (d 27) (d 42) (d 43)) (hc 0 (d 48) (d 49) (d 56)
    (d 57)) (hc 0 (d 50) (d 51) (d 58) (d 59))) (hc 2 (hc 0 (d 28) (d 29) (d 44) (d 45)) (hc 0 (d 30) (d 31) (d 46)
    (d 47)) (hc 0 (d 52) (d 53) (d 60) (d 61)) (hc 0 (d 54) (d 55) (d 62) (d 63))) := by
  change 9*(d 0 - d 2 - d 4 + d 6) + 6*(d 16 - d 20 + d 24 - d 26) + 4*d 48 + 3*(d 18 - d 22 + d 28 - d 30) +
      2*(d 50 + d 52) + d 54 = _
  simp only [hc]
  try ring

private theorem co41 (d : Nat → K) : coeffs d 41 = hc 2 (hc 2 (hc 1 (d 0) (d 1) (d 8) (d 9)) (hc 1 (d 2) (d 3)
    (d 10) (d 11)) (hc 1 (d 16) (d 17) (d 32) (d 33)) (hc 1 (d 18) (d 19) (d 34) (d 35))) (hc 2 (hc 1 (d 4) (d 5)
    (d 12) (d 13)) (hc 1 (d 6) (d 7) (d 14) (d 15)) (hc 1 (d 20) (d 21) (d 36) (d 37)) (hc 1 (d 22) (d 23) (d 38)
    (d 39))) (hc 2 (hc 1 (d 24) (d 25) (d 40) (d 41)) (hc 1 (d 26) (d 27) (d 42) (d 43)) (hc 1 (d 48) (d 49) (d 56)
    (d 57)) (hc 1 (d 50) (d 51) (d 58) (d 59))) (hc 2 (hc 1 (d 28) (d 29) (d 44) (d 45)) (hc 1 (d 30) (d 31) (d 46)
    (d 47)) (hc 1 (d 52) (d 53) (d 60) (d 61)) (hc 1 (d 54) (d 55) (d 62) (d 63))) := by
  change 9*(d 8 - d 10 - d 12 + d 14) + 6*(d 32 - d 36 + d 40 - d 42) + 4*d 56 + 3*(d 34 - d 38 + d 44 - d 46) +
      2*(d 58 + d 60) + d 62 = _
  simp only [hc]
  try ring

private theorem co42 (d : Nat → K) : coeffs d 42 = hc 2 (hc 2 (hc 2 (d 0) (d 1) (d 8) (d 9)) (hc 2 (d 2) (d 3)
    (d 10) (d 11)) (hc 2 (d 16) (d 17) (d 32) (d 33)) (hc 2 (d 18) (d 19) (d 34) (d 35))) (hc 2 (hc 2 (d 4) (d 5)
    (d 12) (d 13)) (hc 2 (d 6) (d 7) (d 14) (d 15)) (hc 2 (d 20) (d 21) (d 36) (d 37)) (hc 2 (d 22) (d 23) (d 38)
    (d 39))) (hc 2 (hc 2 (d 24) (d 25) (d 40) (d 41)) (hc 2 (d 26) (d 27) (d 42) (d 43)) (hc 2 (d 48) (d 49) (d 56)
    (d 57)) (hc 2 (d 50) (d 51) (d 58) (d 59))) (hc 2 (hc 2 (d 28) (d 29) (d 44) (d 45)) (hc 2 (d 30) (d 31) (d 46)
    (d 47)) (hc 2 (d 52) (d 53) (d 60) (d 61)) (hc 2 (d 54) (d 55) (d 62) (d 63))) := by
  change 27*(-d 0 + d 1 + d 2 - d 3 + d 4 - d 5 - d 6 + d 7) + 18*(-d 8 + d 10 + d 12 - d 14 - d 16 + d 17 +
      d 20 - d 21 - d 24 + d 25 + d 26 - d 27) + 12*(-d 32 + d 36 - d 40 + d 42 - d 48 + d 49) + 9*(-d 9 + d 11 + d 13
      - d 15 - d 18 + d 19 + d 22 - d 23 - d 28 + d 29 + d 30 - d 31) - 8*d 56 + 6*(-d 33 - d 34 + d 37 + d 38 -
      d 41 + d 43 - d 44 + d 46 - d 50 + d 51 - d 52 + d 53) + 4*(-d 57 - d 58 - d 60) + 3*(-d 35 + d 39 - d 45 + d 47
      - d 54 + d 55) + 2*(-d 59 - d 61 - d 62) - d 63 = _
  simp only [hc]
  try ring

private theorem co43 (d : Nat → K) : coeffs d 43 = hc 2 (hc 2 (hc 3 (d 0) (d 1) (d 8) (d 9)) (hc 3 (d 2) (d 3)
    (d 10) (d 11)) (hc 3 (d 16) (d 17) (d 32) (d 33)) (hc 3 (d 18) (d 19) (d 34) (d 35))) (hc 2 (hc 3 (d 4) (d 5)
    (d 12) (d 13)) (hc 3 (d 6) (d 7) (d 14) (d 15)) (hc 3 (d 20) (d 21) (d 36) (d 37)) (hc 3 (d 22) (d 23) (d 38)
    (d 39))) (hc 2 (hc 3 (d 24) (d 25) (d 40) (d 41)) (hc 3 (d 26) (d 27) (d 42) (d 43)) (hc 3 (d 48) (d 49) (d 56)
    (d 57)) (hc 3 (d 50) (d 51) (d 58) (d 59))) (hc 2 (hc 3 (d 28) (d 29) (d 44) (d 45)) (hc 3 (d 30) (d 31) (d 46)
    (d 47)) (hc 3 (d 52) (d 53) (d 60) (d 61)) (hc 3 (d 54) (d 55) (d 62) (d 63))) := by
  change 18*(d 0 - d 1 - d 2 + d 3 - d 4 + d 5 + d 6 - d 7) + 12*(d 16 - d 17 - d 20 + d 21 + d 24 - d 25 - d 26
      + d 27) + 9*(d 8 + d 9 - d 10 - d 11 - d 12 - d 13 + d 14 + d 15) + 8*(d 48 - d 49) + 6*(d 18 - d 19 - d 22 +
      d 23 + d 28 - d 29 - d 30 + d 31 + d 32 + d 33 - d 36 - d 37 + d 40 + d 41 - d 42 - d 43) + 4*(d 50 - d 51 +
      d 52 - d 53 + d 56 + d 57) + 3*(d 34 + d 35 - d 38 - d 39 + d 44 + d 45 - d 46 - d 47) + 2*(d 54 - d 55 + d 58 +
      d 59 + d 60 + d 61) + d 62 + d 63 = _
  simp only [hc]
  try ring

private theorem co44 (d : Nat → K) : coeffs d 44 = hc 2 (hc 3 (hc 0 (d 0) (d 1) (d 8) (d 9)) (hc 0 (d 2) (d 3)
    (d 10) (d 11)) (hc 0 (d 16) (d 17) (d 32) (d 33)) (hc 0 (d 18) (d 19) (d 34) (d 35))) (hc 3 (hc 0 (d 4) (d 5)
    (d 12) (d 13)) (hc 0 (d 6) (d 7) (d 14) (d 15)) (hc 0 (d 20) (d 21) (d 36) (d 37)) (hc 0 (d 22) (d 23) (d 38)
    (d 39))) (hc 3 (hc 0 (d 24) (d 25) (d 40) (d 41)) (hc 0 (d 26) (d 27) (d 42) (d 43)) (hc 0 (d 48) (d 49) (d 56)
    (d 57)) (hc 0 (d 50) (d 51) (d 58) (d 59))) (hc 3 (hc 0 (d 28) (d 29) (d 44) (d 45)) (hc 0 (d 30) (d 31) (d 46)
    (d 47)) (hc 0 (d 52) (d 53) (d 60) (d 61)) (hc 0 (d 54) (d 55) (d 62) (d 63))) := by
  change 6*(-d 0 + d 2 + d 4 - d 6) + 4*(-d 24 + d 26) + 3*(-d 16 - d 18 + d 20 + d 22) + 2*(-d 28 + d 30 - d 48
      - d 50) - d 52 - d 54 = _
  simp only [hc]
  try ring

private theorem co45 (d : Nat → K) : coeffs d 45 = hc 2 (hc 3 (hc 1 (d 0) (d 1) (d 8) (d 9)) (hc 1 (d 2) (d 3)
    (d 10) (d 11)) (hc 1 (d 16) (d 17) (d 32) (d 33)) (hc 1 (d 18) (d 19) (d 34) (d 35))) (hc 3 (hc 1 (d 4) (d 5)
    (d 12) (d 13)) (hc 1 (d 6) (d 7) (d 14) (d 15)) (hc 1 (d 20) (d 21) (d 36) (d 37)) (hc 1 (d 22) (d 23) (d 38)
    (d 39))) (hc 3 (hc 1 (d 24) (d 25) (d 40) (d 41)) (hc 1 (d 26) (d 27) (d 42) (d 43)) (hc 1 (d 48) (d 49) (d 56)
    (d 57)) (hc 1 (d 50) (d 51) (d 58) (d 59))) (hc 3 (hc 1 (d 28) (d 29) (d 44) (d 45)) (hc 1 (d 30) (d 31) (d 46)
    (d 47)) (hc 1 (d 52) (d 53) (d 60) (d 61)) (hc 1 (d 54) (d 55) (d 62) (d 63))) := by
  change 6*(-d 8 + d 10 + d 12 - d 14) + 4*(-d 40 + d 42) + 3*(-d 32 - d 34 + d 36 + d 38) + 2*(-d 44 + d 46 -
      d 56 - d 58) - d 60 - d 62 = _
  simp only [hc]
  try ring

private theorem co46 (d : Nat → K) : coeffs d 46 = hc 2 (hc 3 (hc 2 (d 0) (d 1) (d 8) (d 9)) (hc 2 (d 2) (d 3)
    (d 10) (d 11)) (hc 2 (d 16) (d 17) (d 32) (d 33)) (hc 2 (d 18) (d 19) (d 34) (d 35))) (hc 3 (hc 2 (d 4) (d 5)
    (d 12) (d 13)) (hc 2 (d 6) (d 7) (d 14) (d 15)) (hc 2 (d 20) (d 21) (d 36) (d 37)) (hc 2 (d 22) (d 23) (d 38)
    (d 39))) (hc 3 (hc 2 (d 24) (d 25) (d 40) (d 41)) (hc 2 (d 26) (d 27) (d 42) (d 43)) (hc 2 (d 48) (d 49) (d 56)
    (d 57)) (hc 2 (d 50) (d 51) (d 58) (d 59))) (hc 3 (hc 2 (d 28) (d 29) (d 44) (d 45)) (hc 2 (d 30) (d 31) (d 46)
    (d 47)) (hc 2 (d 52) (d 53) (d 60) (d 61)) (hc 2 (d 54) (d 55) (d 62) (d 63))) := by
  change 18*(d 0 - d 1 - d 2 + d 3 - d 4 + d 5 + d 6 - d 7) + 12*(d 8 - d 10 - d 12 + d 14 + d 24 - d 25 - d 26
      + d 27) + 9*(d 16 - d 17 + d 18 - d 19 - d 20 + d 21 - d 22 + d 23) + 8*(d 40 - d 42) + 6*(d 9 - d 11 - d 13 +
      d 15 + d 28 - d 29 - d 30 + d 31 + d 32 + d 34 - d 36 - d 38 + d 48 - d 49 + d 50 - d 51) + 4*(d 41 - d 43 +
      d 44 - d 46 + d 56 + d 58) + 3*(d 33 + d 35 - d 37 - d 39 + d 52 - d 53 + d 54 - d 55) + 2*(d 45 - d 47 + d 57 +
      d 59 + d 60 + d 62) + d 61 + d 63 = _
  simp only [hc]
  try ring

private theorem co47 (d : Nat → K) : coeffs d 47 = hc 2 (hc 3 (hc 3 (d 0) (d 1) (d 8) (d 9)) (hc 3 (d 2) (d 3)
    (d 10) (d 11)) (hc 3 (d 16) (d 17) (d 32) (d 33)) (hc 3 (d 18) (d 19) (d 34) (d 35))) (hc 3 (hc 3 (d 4) (d 5)
    (d 12) (d 13)) (hc 3 (d 6) (d 7) (d 14) (d 15)) (hc 3 (d 20) (d 21) (d 36) (d 37)) (hc 3 (d 22) (d 23) (d 38)
    (d 39))) (hc 3 (hc 3 (d 24) (d 25) (d 40) (d 41)) (hc 3 (d 26) (d 27) (d 42) (d 43)) (hc 3 (d 48) (d 49) (d 56)
    (d 57)) (hc 3 (d 50) (d 51) (d 58) (d 59))) (hc 3 (hc 3 (d 28) (d 29) (d 44) (d 45)) (hc 3 (d 30) (d 31) (d 46)
    (d 47)) (hc 3 (d 52) (d 53) (d 60) (d 61)) (hc 3 (d 54) (d 55) (d 62) (d 63))) := by
  change 12*(-d 0 + d 1 + d 2 - d 3 + d 4 - d 5 - d 6 + d 7) + 8*(-d 24 + d 25 + d 26 - d 27) + 6*(-d 8 - d 9 +
      d 10 + d 11 + d 12 + d 13 - d 14 - d 15 - d 16 + d 17 - d 18 + d 19 + d 20 - d 21 + d 22 - d 23) + 4*(-d 28 +
      d 29 + d 30 - d 31 - d 40 - d 41 + d 42 + d 43 - d 48 + d 49 - d 50 + d 51) + 3*(-d 32 - d 33 - d 34 - d 35 +
      d 36 + d 37 + d 38 + d 39) + 2*(-d 44 - d 45 + d 46 + d 47 - d 52 + d 53 - d 54 + d 55 - d 56 - d 57 - d 58 -
      d 59) - d 60 - d 61 - d 62 - d 63 = _
  simp only [hc]
  try ring

private theorem co48 (d : Nat → K) : coeffs d 48 = hc 3 (hc 0 (hc 0 (d 0) (d 1) (d 8) (d 9)) (hc 0 (d 2) (d 3)
    (d 10) (d 11)) (hc 0 (d 16) (d 17) (d 32) (d 33)) (hc 0 (d 18) (d 19) (d 34) (d 35))) (hc 0 (hc 0 (d 4) (d 5)
    (d 12) (d 13)) (hc 0 (d 6) (d 7) (d 14) (d 15)) (hc 0 (d 20) (d 21) (d 36) (d 37)) (hc 0 (d 22) (d 23) (d 38)
    (d 39))) (hc 0 (hc 0 (d 24) (d 25) (d 40) (d 41)) (hc 0 (d 26) (d 27) (d 42) (d 43)) (hc 0 (d 48) (d 49) (d 56)
    (d 57)) (hc 0 (d 50) (d 51) (d 58) (d 59))) (hc 0 (hc 0 (d 28) (d 29) (d 44) (d 45)) (hc 0 (d 30) (d 31) (d 46)
    (d 47)) (hc 0 (d 52) (d 53) (d 60) (d 61)) (hc 0 (d 54) (d 55) (d 62) (d 63))) := by
  change 2*(d 0 - d 4) + d 24 + d 28 = _
  simp only [hc]
  try ring

private theorem co49 (d : Nat → K) : coeffs d 49 = hc 3 (hc 0 (hc 1 (d 0) (d 1) (d 8) (d 9)) (hc 1 (d 2) (d 3)
    (d 10) (d 11)) (hc 1 (d 16) (d 17) (d 32) (d 33)) (hc 1 (d 18) (d 19) (d 34) (d 35))) (hc 0 (hc 1 (d 4) (d 5)
    (d 12) (d 13)) (hc 1 (d 6) (d 7) (d 14) (d 15)) (hc 1 (d 20) (d 21) (d 36) (d 37)) (hc 1 (d 22) (d 23) (d 38)
    (d 39))) (hc 0 (hc 1 (d 24) (d 25) (d 40) (d 41)) (hc 1 (d 26) (d 27) (d 42) (d 43)) (hc 1 (d 48) (d 49) (d 56)
    (d 57)) (hc 1 (d 50) (d 51) (d 58) (d 59))) (hc 0 (hc 1 (d 28) (d 29) (d 44) (d 45)) (hc 1 (d 30) (d 31) (d 46)
    (d 47)) (hc 1 (d 52) (d 53) (d 60) (d 61)) (hc 1 (d 54) (d 55) (d 62) (d 63))) := by
  change 2*(d 8 - d 12) + d 40 + d 44 = _
  simp only [hc]
  try ring

private theorem co50 (d : Nat → K) : coeffs d 50 = hc 3 (hc 0 (hc 2 (d 0) (d 1) (d 8) (d 9)) (hc 2 (d 2) (d 3)
    (d 10) (d 11)) (hc 2 (d 16) (d 17) (d 32) (d 33)) (hc 2 (d 18) (d 19) (d 34) (d 35))) (hc 0 (hc 2 (d 4) (d 5)
    (d 12) (d 13)) (hc 2 (d 6) (d 7) (d 14) (d 15)) (hc 2 (d 20) (d 21) (d 36) (d 37)) (hc 2 (d 22) (d 23) (d 38)
    (d 39))) (hc 0 (hc 2 (d 24) (d 25) (d 40) (d 41)) (hc 2 (d 26) (d 27) (d 42) (d 43)) (hc 2 (d 48) (d 49) (d 56)
    (d 57)) (hc 2 (d 50) (d 51) (d 58) (d 59))) (hc 0 (hc 2 (d 28) (d 29) (d 44) (d 45)) (hc 2 (d 30) (d 31) (d 46)
    (d 47)) (hc 2 (d 52) (d 53) (d 60) (d 61)) (hc 2 (d 54) (d 55) (d 62) (d 63))) := by
  change 6*(-d 0 + d 1 + d 4 - d 5) + 4*(-d 8 + d 12) + 3*(-d 24 + d 25 - d 28 + d 29) + 2*(-d 9 + d 13 - d 40 -
      d 44) - d 41 - d 45 = _
  simp only [hc]
  try ring

private theorem co51 (d : Nat → K) : coeffs d 51 = hc 3 (hc 0 (hc 3 (d 0) (d 1) (d 8) (d 9)) (hc 3 (d 2) (d 3)
    (d 10) (d 11)) (hc 3 (d 16) (d 17) (d 32) (d 33)) (hc 3 (d 18) (d 19) (d 34) (d 35))) (hc 0 (hc 3 (d 4) (d 5)
    (d 12) (d 13)) (hc 3 (d 6) (d 7) (d 14) (d 15)) (hc 3 (d 20) (d 21) (d 36) (d 37)) (hc 3 (d 22) (d 23) (d 38)
    (d 39))) (hc 0 (hc 3 (d 24) (d 25) (d 40) (d 41)) (hc 3 (d 26) (d 27) (d 42) (d 43)) (hc 3 (d 48) (d 49) (d 56)
    (d 57)) (hc 3 (d 50) (d 51) (d 58) (d 59))) (hc 0 (hc 3 (d 28) (d 29) (d 44) (d 45)) (hc 3 (d 30) (d 31) (d 46)
    (d 47)) (hc 3 (d 52) (d 53) (d 60) (d 61)) (hc 3 (d 54) (d 55) (d 62) (d 63))) := by
  change 4*(d 0 - d 1 - d 4 + d 5) + 2*(d 8 + d 9 - d 12 - d 13 + d 24 - d 25 + d 28 - d 29) + d 40 + d 41 +
      d 44 + d 45 = _
  simp only [hc]
  try ring

private theorem co52 (d : Nat → K) : coeffs d 52 = hc 3 (hc 1 (hc 0 (d 0) (d 1) (d 8) (d 9)) (hc 0 (d 2) (d 3)
    (d 10) (d 11)) (hc 0 (d 16) (d 17) (d 32) (d 33)) (hc 0 (d 18) (d 19) (d 34) (d 35))) (hc 1 (hc 0 (d 4) (d 5)
    (d 12) (d 13)) (hc 0 (d 6) (d 7) (d 14) (d 15)) (hc 0 (d 20) (d 21) (d 36) (d 37)) (hc 0 (d 22) (d 23) (d 38)
    (d 39))) (hc 1 (hc 0 (d 24) (d 25) (d 40) (d 41)) (hc 0 (d 26) (d 27) (d 42) (d 43)) (hc 0 (d 48) (d 49) (d 56)
    (d 57)) (hc 0 (d 50) (d 51) (d 58) (d 59))) (hc 1 (hc 0 (d 28) (d 29) (d 44) (d 45)) (hc 0 (d 30) (d 31) (d 46)
    (d 47)) (hc 0 (d 52) (d 53) (d 60) (d 61)) (hc 0 (d 54) (d 55) (d 62) (d 63))) := by
  change 2*(d 16 - d 20) + d 48 + d 52 = _
  simp only [hc]
  try ring

private theorem co53 (d : Nat → K) : coeffs d 53 = hc 3 (hc 1 (hc 1 (d 0) (d 1) (d 8) (d 9)) (hc 1 (d 2) (d 3)
    (d 10) (d 11)) (hc 1 (d 16) (d 17) (d 32) (d 33)) (hc 1 (d 18) (d 19) (d 34) (d 35))) (hc 1 (hc 1 (d 4) (d 5)
    (d 12) (d 13)) (hc 1 (d 6) (d 7) (d 14) (d 15)) (hc 1 (d 20) (d 21) (d 36) (d 37)) (hc 1 (d 22) (d 23) (d 38)
    (d 39))) (hc 1 (hc 1 (d 24) (d 25) (d 40) (d 41)) (hc 1 (d 26) (d 27) (d 42) (d 43)) (hc 1 (d 48) (d 49) (d 56)
    (d 57)) (hc 1 (d 50) (d 51) (d 58) (d 59))) (hc 1 (hc 1 (d 28) (d 29) (d 44) (d 45)) (hc 1 (d 30) (d 31) (d 46)
    (d 47)) (hc 1 (d 52) (d 53) (d 60) (d 61)) (hc 1 (d 54) (d 55) (d 62) (d 63))) := by
  change 2*(d 32 - d 36) + d 56 + d 60 = _
  simp only [hc]
  try ring

private theorem co54 (d : Nat → K) : coeffs d 54 = hc 3 (hc 1 (hc 2 (d 0) (d 1) (d 8) (d 9)) (hc 2 (d 2) (d 3)
    (d 10) (d 11)) (hc 2 (d 16) (d 17) (d 32) (d 33)) (hc 2 (d 18) (d 19) (d 34) (d 35))) (hc 1 (hc 2 (d 4) (d 5)
    (d 12) (d 13)) (hc 2 (d 6) (d 7) (d 14) (d 15)) (hc 2 (d 20) (d 21) (d 36) (d 37)) (hc 2 (d 22) (d 23) (d 38)
    (d 39))) (hc 1 (hc 2 (d 24) (d 25) (d 40) (d 41)) (hc 2 (d 26) (d 27) (d 42) (d 43)) (hc 2 (d 48) (d 49) (d 56)
    (d 57)) (hc 2 (d 50) (d 51) (d 58) (d 59))) (hc 1 (hc 2 (d 28) (d 29) (d 44) (d 45)) (hc 2 (d 30) (d 31) (d 46)
    (d 47)) (hc 2 (d 52) (d 53) (d 60) (d 61)) (hc 2 (d 54) (d 55) (d 62) (d 63))) := by
  change 6*(-d 16 + d 17 + d 20 - d 21) + 4*(-d 32 + d 36) + 3*(-d 48 + d 49 - d 52 + d 53) + 2*(-d 33 + d 37 -
      d 56 - d 60) - d 57 - d 61 = _
  simp only [hc]
  try ring

private theorem co55 (d : Nat → K) : coeffs d 55 = hc 3 (hc 1 (hc 3 (d 0) (d 1) (d 8) (d 9)) (hc 3 (d 2) (d 3)
    (d 10) (d 11)) (hc 3 (d 16) (d 17) (d 32) (d 33)) (hc 3 (d 18) (d 19) (d 34) (d 35))) (hc 1 (hc 3 (d 4) (d 5)
    (d 12) (d 13)) (hc 3 (d 6) (d 7) (d 14) (d 15)) (hc 3 (d 20) (d 21) (d 36) (d 37)) (hc 3 (d 22) (d 23) (d 38)
    (d 39))) (hc 1 (hc 3 (d 24) (d 25) (d 40) (d 41)) (hc 3 (d 26) (d 27) (d 42) (d 43)) (hc 3 (d 48) (d 49) (d 56)
    (d 57)) (hc 3 (d 50) (d 51) (d 58) (d 59))) (hc 1 (hc 3 (d 28) (d 29) (d 44) (d 45)) (hc 3 (d 30) (d 31) (d 46)
    (d 47)) (hc 3 (d 52) (d 53) (d 60) (d 61)) (hc 3 (d 54) (d 55) (d 62) (d 63))) := by
  change 4*(d 16 - d 17 - d 20 + d 21) + 2*(d 32 + d 33 - d 36 - d 37 + d 48 - d 49 + d 52 - d 53) + d 56 + d 57
      + d 60 + d 61 = _
  simp only [hc]
  try ring

private theorem co56 (d : Nat → K) : coeffs d 56 = hc 3 (hc 2 (hc 0 (d 0) (d 1) (d 8) (d 9)) (hc 0 (d 2) (d 3)
    (d 10) (d 11)) (hc 0 (d 16) (d 17) (d 32) (d 33)) (hc 0 (d 18) (d 19) (d 34) (d 35))) (hc 2 (hc 0 (d 4) (d 5)
    (d 12) (d 13)) (hc 0 (d 6) (d 7) (d 14) (d 15)) (hc 0 (d 20) (d 21) (d 36) (d 37)) (hc 0 (d 22) (d 23) (d 38)
    (d 39))) (hc 2 (hc 0 (d 24) (d 25) (d 40) (d 41)) (hc 0 (d 26) (d 27) (d 42) (d 43)) (hc 0 (d 48) (d 49) (d 56)
    (d 57)) (hc 0 (d 50) (d 51) (d 58) (d 59))) (hc 2 (hc 0 (d 28) (d 29) (d 44) (d 45)) (hc 0 (d 30) (d 31) (d 46)
    (d 47)) (hc 0 (d 52) (d 53) (d 60) (d 61)) (hc 0 (d 54) (d 55) (d 62) (d 63))) := by
  change 6*(-d 0 + d 2 + d 4 - d 6) + 4*(-d 16 + d 20) + 3*(-d 24 + d 26 - d 28 + d 30) + 2*(-d 18 + d 22 - d 48
      - d 52) - d 50 - d 54 = _
  simp only [hc]
  try ring

private theorem co57 (d : Nat → K) : coeffs d 57 = hc 3 (hc 2 (hc 1 (d 0) (d 1) (d 8) (d 9)) (hc 1 (d 2) (d 3)
    (d 10) (d 11)) (hc 1 (d 16) (d 17) (d 32) (d 33)) (hc 1 (d 18) (d 19) (d 34) (d 35))) (hc 2 (hc 1 (d 4) (d 5)
    (d 12) (d 13)) (hc 1 (d 6) (d 7) (d 14) (d 15)) (hc 1 (d 20) (d 21) (d 36) (d 37)) (hc 1 (d 22) (d 23) (d 38)
    (d 39))) (hc 2 (hc 1 (d 24) (d 25) (d 40) (d 41)) (hc 1 (d 26) (d 27) (d 42) (d 43)) (hc 1 (d 48) (d 49) (d 56)
    (d 57)) (hc 1 (d 50) (d 51) (d 58) (d 59))) (hc 2 (hc 1 (d 28) (d 29) (d 44) (d 45)) (hc 1 (d 30) (d 31) (d 46)
    (d 47)) (hc 1 (d 52) (d 53) (d 60) (d 61)) (hc 1 (d 54) (d 55) (d 62) (d 63))) := by
  change 6*(-d 8 + d 10 + d 12 - d 14) + 4*(-d 32 + d 36) + 3*(-d 40 + d 42 - d 44 + d 46) + 2*(-d 34 + d 38 -
      d 56 - d 60) - d 58 - d 62 = _
  simp only [hc]
  try ring

private theorem co58 (d : Nat → K) : coeffs d 58 = hc 3 (hc 2 (hc 2 (d 0) (d 1) (d 8) (d 9)) (hc 2 (d 2) (d 3)
    (d 10) (d 11)) (hc 2 (d 16) (d 17) (d 32) (d 33)) (hc 2 (d 18) (d 19) (d 34) (d 35))) (hc 2 (hc 2 (d 4) (d 5)
    (d 12) (d 13)) (hc 2 (d 6) (d 7) (d 14) (d 15)) (hc 2 (d 20) (d 21) (d 36) (d 37)) (hc 2 (d 22) (d 23) (d 38)
    (d 39))) (hc 2 (hc 2 (d 24) (d 25) (d 40) (d 41)) (hc 2 (d 26) (d 27) (d 42) (d 43)) (hc 2 (d 48) (d 49) (d 56)
    (d 57)) (hc 2 (d 50) (d 51) (d 58) (d 59))) (hc 2 (hc 2 (d 28) (d 29) (d 44) (d 45)) (hc 2 (d 30) (d 31) (d 46)
    (d 47)) (hc 2 (d 52) (d 53) (d 60) (d 61)) (hc 2 (d 54) (d 55) (d 62) (d 63))) := by
  change 18*(d 0 - d 1 - d 2 + d 3 - d 4 + d 5 + d 6 - d 7) + 12*(d 8 - d 10 - d 12 + d 14 + d 16 - d 17 - d 20
      + d 21) + 9*(d 24 - d 25 - d 26 + d 27 + d 28 - d 29 - d 30 + d 31) + 8*(d 32 - d 36) + 6*(d 9 - d 11 - d 13 +
      d 15 + d 18 - d 19 - d 22 + d 23 + d 40 - d 42 + d 44 - d 46 + d 48 - d 49 + d 52 - d 53) + 4*(d 33 + d 34 -
      d 37 - d 38 + d 56 + d 60) + 3*(d 41 - d 43 + d 45 - d 47 + d 50 - d 51 + d 54 - d 55) + 2*(d 35 - d 39 + d 57 +
      d 58 + d 61 + d 62) + d 59 + d 63 = _
  simp only [hc]
  try ring

private theorem co59 (d : Nat → K) : coeffs d 59 = hc 3 (hc 2 (hc 3 (d 0) (d 1) (d 8) (d 9)) (hc 3 (d 2) (d 3)
    (d 10) (d 11)) (hc 3 (d 16) (d 17) (d 32) (d 33)) (hc 3 (d 18) (d 19) (d 34) (d 35))) (hc 2 (hc 3 (d 4) (d 5)
    (d 12) (d 13)) (hc 3 (d 6) (d 7) (d 14) (d 15)) (hc 3 (d 20) (d 21) (d 36) (d 37)) (hc 3 (d 22) (d 23) (d 38)
    (d 39))) (hc 2 (hc 3 (d 24) (d 25) (d 40) (d 41)) (hc 3 (d 26) (d 27) (d 42) (d 43)) (hc 3 (d 48) (d 49) (d 56)
    (d 57)) (hc 3 (d 50) (d 51) (d 58) (d 59))) (hc 2 (hc 3 (d 28) (d 29) (d 44) (d 45)) (hc 3 (d 30) (d 31) (d 46)
    (d 47)) (hc 3 (d 52) (d 53) (d 60) (d 61)) (hc 3 (d 54) (d 55) (d 62) (d 63))) := by
  change 12*(-d 0 + d 1 + d 2 - d 3 + d 4 - d 5 - d 6 + d 7) + 8*(-d 16 + d 17 + d 20 - d 21) + 6*(-d 8 - d 9 +
      d 10 + d 11 + d 12 + d 13 - d 14 - d 15 - d 24 + d 25 + d 26 - d 27 - d 28 + d 29 + d 30 - d 31) + 4*(-d 18 +
      d 19 + d 22 - d 23 - d 32 - d 33 + d 36 + d 37 - d 48 + d 49 - d 52 + d 53) + 3*(-d 40 - d 41 + d 42 + d 43 -
      d 44 - d 45 + d 46 + d 47) + 2*(-d 34 - d 35 + d 38 + d 39 - d 50 + d 51 - d 54 + d 55 - d 56 - d 57 - d 60 -
      d 61) - d 58 - d 59 - d 62 - d 63 = _
  simp only [hc]
  try ring

private theorem co60 (d : Nat → K) : coeffs d 60 = hc 3 (hc 3 (hc 0 (d 0) (d 1) (d 8) (d 9)) (hc 0 (d 2) (d 3)
    (d 10) (d 11)) (hc 0 (d 16) (d 17) (d 32) (d 33)) (hc 0 (d 18) (d 19) (d 34) (d 35))) (hc 3 (hc 0 (d 4) (d 5)
    (d 12) (d 13)) (hc 0 (d 6) (d 7) (d 14) (d 15)) (hc 0 (d 20) (d 21) (d 36) (d 37)) (hc 0 (d 22) (d 23) (d 38)
    (d 39))) (hc 3 (hc 0 (d 24) (d 25) (d 40) (d 41)) (hc 0 (d 26) (d 27) (d 42) (d 43)) (hc 0 (d 48) (d 49) (d 56)
    (d 57)) (hc 0 (d 50) (d 51) (d 58) (d 59))) (hc 3 (hc 0 (d 28) (d 29) (d 44) (d 45)) (hc 0 (d 30) (d 31) (d 46)
    (d 47)) (hc 0 (d 52) (d 53) (d 60) (d 61)) (hc 0 (d 54) (d 55) (d 62) (d 63))) := by
  change 4*(d 0 - d 2 - d 4 + d 6) + 2*(d 16 + d 18 - d 20 - d 22 + d 24 - d 26 + d 28 - d 30) + d 48 + d 50 +
      d 52 + d 54 = _
  simp only [hc]
  try ring

private theorem co61 (d : Nat → K) : coeffs d 61 = hc 3 (hc 3 (hc 1 (d 0) (d 1) (d 8) (d 9)) (hc 1 (d 2) (d 3)
    (d 10) (d 11)) (hc 1 (d 16) (d 17) (d 32) (d 33)) (hc 1 (d 18) (d 19) (d 34) (d 35))) (hc 3 (hc 1 (d 4) (d 5)
    (d 12) (d 13)) (hc 1 (d 6) (d 7) (d 14) (d 15)) (hc 1 (d 20) (d 21) (d 36) (d 37)) (hc 1 (d 22) (d 23) (d 38)
    (d 39))) (hc 3 (hc 1 (d 24) (d 25) (d 40) (d 41)) (hc 1 (d 26) (d 27) (d 42) (d 43)) (hc 1 (d 48) (d 49) (d 56)
    (d 57)) (hc 1 (d 50) (d 51) (d 58) (d 59))) (hc 3 (hc 1 (d 28) (d 29) (d 44) (d 45)) (hc 1 (d 30) (d 31) (d 46)
    (d 47)) (hc 1 (d 52) (d 53) (d 60) (d 61)) (hc 1 (d 54) (d 55) (d 62) (d 63))) := by
  change 4*(d 8 - d 10 - d 12 + d 14) + 2*(d 32 + d 34 - d 36 - d 38 + d 40 - d 42 + d 44 - d 46) + d 56 + d 58
      + d 60 + d 62 = _
  simp only [hc]
  try ring

private theorem co62 (d : Nat → K) : coeffs d 62 = hc 3 (hc 3 (hc 2 (d 0) (d 1) (d 8) (d 9)) (hc 2 (d 2) (d 3)
    (d 10) (d 11)) (hc 2 (d 16) (d 17) (d 32) (d 33)) (hc 2 (d 18) (d 19) (d 34) (d 35))) (hc 3 (hc 2 (d 4) (d 5)
    (d 12) (d 13)) (hc 2 (d 6) (d 7) (d 14) (d 15)) (hc 2 (d 20) (d 21) (d 36) (d 37)) (hc 2 (d 22) (d 23) (d 38)
    (d 39))) (hc 3 (hc 2 (d 24) (d 25) (d 40) (d 41)) (hc 2 (d 26) (d 27) (d 42) (d 43)) (hc 2 (d 48) (d 49) (d 56)
    (d 57)) (hc 2 (d 50) (d 51) (d 58) (d 59))) (hc 3 (hc 2 (d 28) (d 29) (d 44) (d 45)) (hc 2 (d 30) (d 31) (d 46)
    (d 47)) (hc 2 (d 52) (d 53) (d 60) (d 61)) (hc 2 (d 54) (d 55) (d 62) (d 63))) := by
  change 12*(-d 0 + d 1 + d 2 - d 3 + d 4 - d 5 - d 6 + d 7) + 8*(-d 8 + d 10 + d 12 - d 14) + 6*(-d 16 + d 17 -
      d 18 + d 19 + d 20 - d 21 + d 22 - d 23 - d 24 + d 25 + d 26 - d 27 - d 28 + d 29 + d 30 - d 31) + 4*(-d 9 +
      d 11 + d 13 - d 15 - d 32 - d 34 + d 36 + d 38 - d 40 + d 42 - d 44 + d 46) + 3*(-d 48 + d 49 - d 50 + d 51 -
      d 52 + d 53 - d 54 + d 55) + 2*(-d 33 - d 35 + d 37 + d 39 - d 41 + d 43 - d 45 + d 47 - d 56 - d 58 - d 60 -
      d 62) - d 57 - d 59 - d 61 - d 63 = _
  simp only [hc]
  try ring

private theorem co63 (d : Nat → K) : coeffs d 63 = hc 3 (hc 3 (hc 3 (d 0) (d 1) (d 8) (d 9)) (hc 3 (d 2) (d 3)
    (d 10) (d 11)) (hc 3 (d 16) (d 17) (d 32) (d 33)) (hc 3 (d 18) (d 19) (d 34) (d 35))) (hc 3 (hc 3 (d 4) (d 5)
    (d 12) (d 13)) (hc 3 (d 6) (d 7) (d 14) (d 15)) (hc 3 (d 20) (d 21) (d 36) (d 37)) (hc 3 (d 22) (d 23) (d 38)
    (d 39))) (hc 3 (hc 3 (d 24) (d 25) (d 40) (d 41)) (hc 3 (d 26) (d 27) (d 42) (d 43)) (hc 3 (d 48) (d 49) (d 56)
    (d 57)) (hc 3 (d 50) (d 51) (d 58) (d 59))) (hc 3 (hc 3 (d 28) (d 29) (d 44) (d 45)) (hc 3 (d 30) (d 31) (d 46)
    (d 47)) (hc 3 (d 52) (d 53) (d 60) (d 61)) (hc 3 (d 54) (d 55) (d 62) (d 63))) := by
  change 8*(d 0 - d 1 - d 2 + d 3 - d 4 + d 5 + d 6 - d 7) + 4*(d 8 + d 9 - d 10 - d 11 - d 12 - d 13 + d 14 +
      d 15 + d 16 - d 17 + d 18 - d 19 - d 20 + d 21 - d 22 + d 23 + d 24 - d 25 - d 26 + d 27 + d 28 - d 29 - d 30 +
      d 31) + 2*(d 32 + d 33 + d 34 + d 35 - d 36 - d 37 - d 38 - d 39 + d 40 + d 41 - d 42 - d 43 + d 44 + d 45 -
      d 46 - d 47 + d 48 - d 49 + d 50 - d 51 + d 52 - d 53 + d 54 - d 55) + d 56 + d 57 + d 58 + d 59 + d 60 + d 61 +
      d 62 + d 63 = _
  simp only [hc]
  try ring

/-- A cubic (`o = false`) or its derivative (`o = true`) in Horner form. -/
def dhorner (o : Bool) (a b c d t : K) : K := if o then (3 * d * t + 2 * c) * t + b else ((d * t + c) * t + b) * t + a

/-- The partial derivatives of `evaluate_polynomial`: `ox`, `oy`, `oz` say along which axes it is differentiated. -/
def partialPoly (ox oy oz : Bool) (c : Nat → K) (t u v : K) : K :=
  let p (n : Nat) := dhorner ox (c (4 * n)) (c (4 * n + 1)) (c (4 * n + 2)) (c (4 * n + 3)) t
  let q (n : Nat) := dhorner oy (p (4 * n)) (p (4 * n + 1)) (p (4 * n + 2)) (p (4 * n + 3)) u
  dhorner oz (q 0) (q 1) (q 2) (q 3) v

theorem partialPoly_false (c : Nat → K) (t u v : K) : partialPoly false false false c t u v = evalPoly c t u v := rfl

/-- The one-dimensional Hermite cubic or its derivative. -/
def dherm (o : Bool) (t p0 p1 m0 m1 : K) : K :=
  dhorner o (hc 0 p0 p1 m0 m1) (hc 1 p0 p1 m0 m1) (hc 2 p0 p1 m0 m1) (hc 3 p0 p1 m0 m1) t

theorem dhorner_hc (o : Bool) (n : Nat) (a0 a1 a2 a3 b0 b1 b2 b3 c0 c1 c2 c3 d0 d1 d2 d3 t : K) :
    dhorner o (hc n a0 a1 a2 a3) (hc n b0 b1 b2 b3) (hc n c0 c1 c2 c3) (hc n d0 d1 d2 d3) t =
      hc n (dhorner o a0 b0 c0 d0 t) (dhorner o a1 b1 c1 d1 t) (dhorner o a2 b2 c2 d2 t) (dhorner o a3 b3 c3 d3
          t) := by
  cases o <;> simp only [dhorner, if_true, Bool.false_eq_true, if_false]
  all_goals
    match n with
    | 0 => rfl
    | 1 => rfl
    | 2 => simp only [hc]; ring
    | _ + 3 => simp only [hc]; ring

theorem dherm_zero (p0 p1 m0 m1 : K) : dherm false 0 p0 p1 m0 m1 = p0 := by simp [dherm, dhorner, hc]
theorem dherm_one (p0 p1 m0 m1 : K) : dherm false 1 p0 p1 m0 m1 = p1 := by
  simp only [dherm, dhorner, hc, Bool.false_eq_true, if_false]; ring
theorem dherm'_zero (p0 p1 m0 m1 : K) : dherm true 0 p0 p1 m0 m1 = m0 := by simp [dherm, dhorner, hc]
theorem dherm'_one (p0 p1 m0 m1 : K) : dherm true 1 p0 p1 m0 m1 = m1 := by
  simp only [dherm, dhorner, hc, if_true]; ring

/-- The cell polynomial and its partial derivatives are the threefold Hermite interpolant of the 64 data. -/
theorem partialPoly_coeffs (ox oy oz : Bool) (d : Nat → K) (t u v : K) : partialPoly ox oy oz (coeffs d) t u v =
    dherm oz v (dherm oy u (dherm ox t (d 0) (d 1) (d 8) (d 9)) (dherm ox t (d 2) (d 3) (d 10) (d 11)) (dherm ox
        t (d 16) (d 17) (d 32) (d 33)) (dherm ox t (d 18) (d 19) (d 34) (d 35))) (dherm oy u (dherm ox t (d 4) (d 5)
        (d 12) (d 13)) (dherm ox t (d 6) (d 7) (d 14) (d 15)) (dherm ox t (d 20) (d 21) (d 36) (d 37)) (dherm ox t
        (d 22) (d 23) (d 38) (d 39))) (dherm oy u (dherm ox t (d 24) (d 25) (d 40) (d 41)) (dherm ox t (d 26) (d 27)
        (d 42) (d 43)) (dherm ox t (d 48) (d 49) (d 56) (d 57)) (dherm ox t (d 50) (d 51) (d 58) (d 59))) (dherm oy
        u (dherm ox t (d 28) (d 29) (d 44) (d 45)) (dherm ox t (d 30) (d 31) (d 46) (d 47)) (dherm ox t (d 52)
        (d 53) (d 60) (d 61)) (dherm ox t (d 54) (d 55) (d 62) (d 63))) := by
  simp only [partialPoly, Nat.mul_zero, Nat.zero_add, Nat.reduceMul, Nat.reduceAdd]
  simp only [co0, co1, co2, co3, co4, co5, co6, co7, co8, co9, co10, co11, co12, co13, co14, co15, co16, co17,
      co18, co19, co20, co21, co22, co23, co24, co25, co26, co27, co28, co29, co30, co31, co32, co33, co34, co35,
      co36, co37, co38, co39, co40, co41, co42, co43, co44, co45, co46, co47, co48, co49, co50, co51, co52, co53,
      co54, co55, co56, co57, co58, co59, co60, co61, co62, co63, dhorner_hc, dherm]

end Verif.Interp
