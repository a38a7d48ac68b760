import Verif.Base.Words

/-! Generated by tools/gen_rej.py: the table of the rejection sampler of ML-KEM. -/
namespace Verif.MlKem.X86
open Verif

/-- low/x86_64/mlkem.rs:78-335, `MLKEM_REJ_UNIFORM_TABLE`, sixteen entries to a row; the entry -1 is written 255. -/
def rejRows : List (List Nat) := [
  [255, 255, 255, 255, 255, 255, 255, 255, 255, 255, 255, 255, 255, 255, 255, 255],
  [0, 1, 255, 255, 255, 255, 255, 255, 255, 255, 255, 255, 255, 255, 255, 255],
  [2, 3, 255, 255, 255, 255, 255, 255, 255, 255, 255, 255, 255, 255, 255, 255],
  [0, 1, 2, 3, 255, 255, 255, 255, 255, 255, 255, 255, 255, 255, 255, 255],
  [4, 5, 255, 255, 255, 255, 255, 255, 255, 255, 255, 255, 255, 255, 255, 255],
  [0, 1, 4, 5, 255, 255, 255, 255, 255, 255, 255, 255, 255, 255, 255, 255],
  [2, 3, 4, 5, 255, 255, 255, 255, 255, 255, 255, 255, 255, 255, 255, 255],
  [0, 1, 2, 3, 4, 5, 255, 255, 255, 255, 255, 255, 255, 255, 255, 255],
  [6, 7, 255, 255, 255, 255, 255, 255, 255, 255, 255, 255, 255, 255, 255, 255],
  [0, 1, 6, 7, 255, 255, 255, 255, 255, 255, 255, 255, 255, 255, 255, 255],
  [2, 3, 6, 7, 255, 255, 255, 255, 255, 255, 255, 255, 255, 255, 255, 255],
  [0, 1, 2, 3, 6, 7, 255, 255, 255, 255, 255, 255, 255, 255, 255, 255],
  [4, 5, 6, 7, 255, 255, 255, 255, 255, 255, 255, 255, 255, 255, 255, 255],
  [0, 1, 4, 5, 6, 7, 255, 255, 255, 255, 255, 255, 255, 255, 255, 255],
  [2, 3, 4, 5, 6, 7, 255, 255, 255, 255, 255, 255, 255, 255, 255, 255],
  [0, 1, 2, 3, 4, 5, 6, 7, 255, 255, 255, 255, 255, 255, 255, 255],
  [8, 9, 255, 255, 255, 255, 255, 255, 255, 255, 255, 255, 255, 255, 255, 255],
  [0, 1, 8, 9, 255, 255, 255, 255, 255, 255, 255, 255, 255, 255, 255, 255],
  [2, 3, 8, 9, 255, 255, 255, 255, 255, 255, 255, 255, 255, 255, 255, 255],
  [0, 1, 2, 3, 8, 9, 255, 255, 255, 255, 255, 255, 255, 255, 255, 255],
  [4, 5, 8, 9, 255, 255, 255, 255, 255, 255, 255, 255, 255, 255, 255, 255],
  [0, 1, 4, 5, 8, 9, 255, 255, 255, 255, 255, 255, 255, 255, 255, 255],
  [2, 3, 4, 5, 8, 9, 255, 255, 255, 255, 255, 255, 255, 255, 255, 255],
  [0, 1, 2, 3, 4, 5, 8, 9, 255, 255, 255, 255, 255, 255, 255, 255],
  [6, 7, 8, 9, 255, 255, 255, 255, 255, 255, 255, 255, 255, 255, 255, 255],
  [0, 1, 6, 7, 8, 9, 255, 255, 255, 255, 255, 255, 255, 255, 255, 255],
  [2, 3, 6, 7, 8, 9, 255, 255, 255, 255, 255, 255, 255, 255, 255, 255],
  [0, 1, 2, 3, 6, 7, 8, 9, 255, 255, 255, 255, 255, 255, 255, 255],
  [4, 5, 6, 7, 8, 9, 255, 255, 255, 255, 255, 255, 255, 255, 255, 255],
  [0, 1, 4, 5, 6, 7, 8, 9, 255, 255, 255, 255, 255, 255, 255, 255],
  [2, 3, 4, 5, 6, 7, 8, 9, 255, 255, 255, 255, 255, 255, 255, 255],
  [0, 1, 2, 3, 4, 5, 6, 7, 8, 9, 255, 255, 255, 255, 255, 255],
  [10, 11, 255, 255, 255, 255, 255, 255, 255, 255, 255, 255, 255, 255, 255, 255],
  [0, 1, 10, 11, 255, 255, 255, 255, 255, 255, 255, 255, 255, 255, 255, 255],
  [2, 3, 10, 11, 255, 255, 255, 255, 255, 255, 255, 255, 255, 255, 255, 255],
  [0, 1, 2, 3, 10, 11, 255, 255, 255, 255, 255, 255, 255, 255, 255, 255],
  [4, 5, 10, 11, 255, 255, 255, 255, 255, 255, 255, 255, 255, 255, 255, 255],
  [0, 1, 4, 5, 10, 11, 255, 255, 255, 255, 255, 255, 255, 255, 255, 255],
  [2, 3, 4, 5, 10, 11, 255, 255, 255, 255, 255, 255, 255, 255, 255, 255],
  [0, 1, 2, 3, 4, 5, 10, 11, 255, 255, 255, 255, 255, 255, 255, 255],
  [6, 7, 10, 11, 255, 255, 255, 255, 255, 255, 255, 255, 255, 255, 255, 255],
  [0, 1, 6, 7, 10, 11, 255, 255, 255, 255, 255, 255, 255, 255, 255, 255],
  [2, 3, 6, 7, 10, 11, 255, 255, 255, 255, 255, 255, 255, 255, 255, 255],
  [0, 1, 2, 3, 6, 7, 10, 11, 255, 255, 255, 255, 255, 255, 255, 255],
  [4, 5, 6, 7, 10, 11, 255, 255, 255, 255, 255, 255, 255, 255, 255, 255],
  [0, 1, 4, 5, 6, 7, 10, 11, 255, 255, 255, 255, 255, 255, 255, 255],
  [2, 3, 4, 5, 6, 7, 10, 11, 255, 255, 255, 255, 255, 255, 255, 255],
  [0, 1, 2, 3, 4, 5, 6, 7, 10, 11, 255, 255, 255, 255, 255, 255],
  [8, 9, 10, 11, 255, 255, 255, 255, 255, 255, 255, 255, 255, 255, 255, 255],
  [0, 1, 8, 9, 10, 11, 255, 255, 255, 255, 255, 255, 255, 255, 255, 255],
  [2, 3, 8, 9, 10, 11, 255, 255, 255, 255, 255, 255, 255, 255, 255, 255],
  [0, 1, 2, 3, 8, 9, 10, 11, 255, 255, 255, 255, 255, 255, 255, 255],
  [4, 5, 8, 9, 10, 11, 255, 255, 255, 255, 255, 255, 255, 255, 255, 255],
  [0, 1, 4, 5, 8, 9, 10, 11, 255, 255, 255, 255, 255, 255, 255, 255],
  [2, 3, 4, 5, 8, 9, 10, 11, 255, 255, 255, 255, 255, 255, 255, 255],
  [0, 1, 2, 3, 4, 5, 8, 9, 10, 11, 255, 255, 255, 255, 255, 255],
  [6, 7, 8, 9, 10, 11, 255, 255, 255, 255, 255, 255, 255, 255, 255, 255],
  [0, 1, 6, 7, 8, 9, 10, 11, 255, 255, 255, 255, 255, 255, 255, 255],
  [2, 3, 6, 7, 8, 9, 10, 11, 255, 255, 255, 255, 255, 255, 255, 255],
  [0, 1, 2, 3, 6, 7, 8, 9, 10, 11, 255, 255, 255, 255, 255, 255],
  [4, 5, 6, 7, 8, 9, 10, 11, 255, 255, 255, 255, 255, 255, 255, 255],
  [0, 1, 4, 5, 6, 7, 8, 9, 10, 11, 255, 255, 255, 255, 255, 255],
  [2, 3, 4, 5, 6, 7, 8, 9, 10, 11, 255, 255, 255, 255, 255, 255],
  [0, 1, 2, 3, 4, 5, 6, 7, 8, 9, 10, 11, 255, 255, 255, 255],
  [12, 13, 255, 255, 255, 255, 255, 255, 255, 255, 255, 255, 255, 255, 255, 255],
  [0, 1, 12, 13, 255, 255, 255, 255, 255, 255, 255, 255, 255, 255, 255, 255],
  [2, 3, 12, 13, 255, 255, 255, 255, 255, 255, 255, 255, 255, 255, 255, 255],
  [0, 1, 2, 3, 12, 13, 255, 255, 255, 255, 255, 255, 255, 255, 255, 255],
  [4, 5, 12, 13, 255, 255, 255, 255, 255, 255, 255, 255, 255, 255, 255, 255],
  [0, 1, 4, 5, 12, 13, 255, 255, 255, 255, 255, 255, 255, 255, 255, 255],
  [2, 3, 4, 5, 12, 13, 255, 255, 255, 255, 255, 255, 255, 255, 255, 255],
  [0, 1, 2, 3, 4, 5, 12, 13, 255, 255, 255, 255, 255, 255, 255, 255],
  [6, 7, 12, 13, 255, 255, 255, 255, 255, 255, 255, 255, 255, 255, 255, 255],
  [0, 1, 6, 7, 12, 13, 255, 255, 255, 255, 255, 255, 255, 255, 255, 255],
  [2, 3, 6, 7, 12, 13, 255, 255, 255, 255, 255, 255, 255, 255, 255, 255],
  [0, 1, 2, 3, 6, 7, 12, 13, 255, 255, 255, 255, 255, 255, 255, 255],
  [4, 5, 6, 7, 12, 13, 255, 255, 255, 255, 255, 255, 255, 255, 255, 255],
  [0, 1, 4, 5, 6, 7, 12, 13, 255, 255, 255, 255, 255, 255, 255, 255],
  [2, 3, 4, 5, 6, 7, 12, 13, 255, 255, 255, 255, 255, 255, 255, 255],
  [0, 1, 2, 3, 4, 5, 6, 7, 12, 13, 255, 255, 255, 255, 255, 255],
  [8, 9, 12, 13, 255, 255, 255, 255, 255, 255, 255, 255, 255, 255, 255, 255],
  [0, 1, 8, 9, 12, 13, 255, 255, 255, 255, 255, 255, 255, 255, 255, 255],
  [2, 3, 8, 9, 12, 13, 255, 255, 255, 255, 255, 255, 255, 255, 255, 255],
  [0, 1, 2, 3, 8, 9, 12, 13, 255, 255, 255, 255, 255, 255, 255, 255],
  [4, 5, 8, 9, 12, 13, 255, 255, 255, 255, 255, 255, 255, 255, 255, 255],
  [0, 1, 4, 5, 8, 9, 12, 13, 255, 255, 255, 255, 255, 255, 255, 255],
  [2, 3, 4, 5, 8, 9, 12, 13, 255, 255, 255, 255, 255, 255, 255, 255],
  [0, 1, 2, 3, 4, 5, 8, 9, 12, 13, 255, 255, 255, 255, 255, 255],
  [6, 7, 8, 9, 12, 13, 255, 255, 255, 255, 255, 255, 255, 255, 255, 255],
  [0, 1, 6, 7, 8, 9, 12, 13, 255, 255, 255, 255, 255, 255, 255, 255],
  [2, 3, 6, 7, 8, 9, 12, 13, 255, 255, 255, 255, 255, 255, 255, 255],
  [0, 1, 2, 3, 6, 7, 8, 9, 12, 13, 255, 255, 255, 255, 255, 255],
  [4, 5, 6, 7, 8, 9, 12, 13, 255, 255, 255, 255, 255, 255, 255, 255],
  [0, 1, 4, 5, 6, 7, 8, 9, 12, 13, 255, 255, 255, 255, 255, 255],
  [2, 3, 4, 5, 6, 7, 8, 9, 12, 13, 255, 255, 255, 255, 255, 255],
  [0, 1, 2, 3, 4, 5, 6, 7, 8, 9, 12, 13, 255, 255, 255, 255],
  [10, 11, 12, 13, 255, 255, 255, 255, 255, 255, 255, 255, 255, 255, 255, 255],
  [0, 1, 10, 11, 12, 13, 255, 255, 255, 255, 255, 255, 255, 255, 255, 255],
  [2, 3, 10, 11, 12, 13, 255, 255, 255, 255, 255, 255, 255, 255, 255, 255],
  [0, 1, 2, 3, 10, 11, 12, 13, 255, 255, 255, 255, 255, 255, 255, 255],
  [4, 5, 10, 11, 12, 13, 255, 255, 255, 255, 255, 255, 255, 255, 255, 255],
  [0, 1, 4, 5, 10, 11, 12, 13, 255, 255, 255, 255, 255, 255, 255, 255],
  [2, 3, 4, 5, 10, 11, 12, 13, 255, 255, 255, 255, 255, 255, 255, 255],
  [0, 1, 2, 3, 4, 5, 10, 11, 12, 13, 255, 255, 255, 255, 255, 255],
  [6, 7, 10, 11, 12, 13, 255, 255, 255, 255, 255, 255, 255, 255, 255, 255],
  [0, 1, 6, 7, 10, 11, 12, 13, 255, 255, 255, 255, 255, 255, 255, 255],
  [2, 3, 6, 7, 10, 11, 12, 13, 255, 255, 255, 255, 255, 255, 255, 255],
  [0, 1, 2, 3, 6, 7, 10, 11, 12, 13, 255, 255, 255, 255, 255, 255],
  [4, 5, 6, 7, 10, 11, 12, 13, 255, 255, 255, 255, 255, 255, 255, 255],
  [0, 1, 4, 5, 6, 7, 10, 11, 12, 13, 255, 255, 255, 255, 255, 255],
  [2, 3, 4, 5, 6, 7, 10, 11, 12, 13, 255, 255, 255, 255, 255, 255],
  [0, 1, 2, 3, 4, 5, 6, 7, 10, 11, 12, 13, 255, 255, 255, 255],
  [8, 9, 10, 11, 12, 13, 255, 255, 255, 255, 255, 255, 255, 255, 255, 255],
  [0, 1, 8, 9, 10, 11, 12, 13, 255, 255, 255, 255, 255, 255, 255, 255],
  [2, 3, 8, 9, 10, 11, 12, 13, 255, 255, 255, 255, 255, 255, 255, 255],
  [0, 1, 2, 3, 8, 9, 10, 11, 12, 13, 255, 255, 255, 255, 255, 255],
  [4, 5, 8, 9, 10, 11, 12, 13, 255, 255, 255, 255, 255, 255, 255, 255],
  [0, 1, 4, 5, 8, 9, 10, 11, 12, 13, 255, 255, 255, 255, 255, 255],
  [2, 3, 4, 5, 8, 9, 10, 11, 12, 13, 255, 255, 255, 255, 255, 255],
  [0, 1, 2, 3, 4, 5, 8, 9, 10, 11, 12, 13, 255, 255, 255, 255],
  [6, 7, 8, 9, 10, 11, 12, 13, 255, 255, 255, 255, 255, 255, 255, 255],
  [0, 1, 6, 7, 8, 9, 10, 11, 12, 13, 255, 255, 255, 255, 255, 255],
  [2, 3, 6, 7, 8, 9, 10, 11, 12, 13, 255, 255, 255, 255, 255, 255],
  [0, 1, 2, 3, 6, 7, 8, 9, 10, 11, 12, 13, 255, 255, 255, 255],
  [4, 5, 6, 7, 8, 9, 10, 11, 12, 13, 255, 255, 255, 255, 255, 255],
  [0, 1, 4, 5, 6, 7, 8, 9, 10, 11, 12, 13, 255, 255, 255, 255],
  [2, 3, 4, 5, 6, 7, 8, 9, 10, 11, 12, 13, 255, 255, 255, 255],
  [0, 1, 2, 3, 4, 5, 6, 7, 8, 9, 10, 11, 12, 13, 255, 255],
  [14, 15, 255, 255, 255, 255, 255, 255, 255, 255, 255, 255, 255, 255, 255, 255],
  [0, 1, 14, 15, 255, 255, 255, 255, 255, 255, 255, 255, 255, 255, 255, 255],
  [2, 3, 14, 15, 255, 255, 255, 255, 255, 255, 255, 255, 255, 255, 255, 255],
  [0, 1, 2, 3, 14, 15, 255, 255, 255, 255, 255, 255, 255, 255, 255, 255],
  [4, 5, 14, 15, 255, 255, 255, 255, 255, 255, 255, 255, 255, 255, 255, 255],
  [0, 1, 4, 5, 14, 15, 255, 255, 255, 255, 255, 255, 255, 255, 255, 255],
  [2, 3, 4, 5, 14, 15, 255, 255, 255, 255, 255, 255, 255, 255, 255, 255],
  [0, 1, 2, 3, 4, 5, 14, 15, 255, 255, 255, 255, 255, 255, 255, 255],
  [6, 7, 14, 15, 255, 255, 255, 255, 255, 255, 255, 255, 255, 255, 255, 255],
  [0, 1, 6, 7, 14, 15, 255, 255, 255, 255, 255, 255, 255, 255, 255, 255],
  [2, 3, 6, 7, 14, 15, 255, 255, 255, 255, 255, 255, 255, 255, 255, 255],
  [0, 1, 2, 3, 6, 7, 14, 15, 255, 255, 255, 255, 255, 255, 255, 255],
  [4, 5, 6, 7, 14, 15, 255, 255, 255, 255, 255, 255, 255, 255, 255, 255],
  [0, 1, 4, 5, 6, 7, 14, 15, 255, 255, 255, 255, 255, 255, 255, 255],
  [2, 3, 4, 5, 6, 7, 14, 15, 255, 255, 255, 255, 255, 255, 255, 255],
  [0, 1, 2, 3, 4, 5, 6, 7, 14, 15, 255, 255, 255, 255, 255, 255],
  [8, 9, 14, 15, 255, 255, 255, 255, 255, 255, 255, 255, 255, 255, 255, 255],
  [0, 1, 8, 9, 14, 15, 255, 255, 255, 255, 255, 255, 255, 255, 255, 255],
  [2, 3, 8, 9, 14, 15, 255, 255, 255, 255, 255, 255, 255, 255, 255, 255],
  [0, 1, 2, 3, 8, 9, 14, 15, 255, 255, 255, 255, 255, 255, 255, 255],
  [4, 5, 8, 9, 14, 15, 255, 255, 255, 255, 255, 255, 255, 255, 255, 255],
  [0, 1, 4, 5, 8, 9, 14, 15, 255, 255, 255, 255, 255, 255, 255, 255],
  [2, 3, 4, 5, 8, 9, 14, 15, 255, 255, 255, 255, 255, 255, 255, 255],
  [0, 1, 2, 3, 4, 5, 8, 9, 14, 15, 255, 255, 255, 255, 255, 255],
  [6, 7, 8, 9, 14, 15, 255, 255, 255, 255, 255, 255, 255, 255, 255, 255],
  [0, 1, 6, 7, 8, 9, 14, 15, 255, 255, 255, 255, 255, 255, 255, 255],
  [2, 3, 6, 7, 8, 9, 14, 15, 255, 255, 255, 255, 255, 255, 255, 255],
  [0, 1, 2, 3, 6, 7, 8, 9, 14, 15, 255, 255, 255, 255, 255, 255],
  [4, 5, 6, 7, 8, 9, 14, 15, 255, 255, 255, 255, 255, 255, 255, 255],
  [0, 1, 4, 5, 6, 7, 8, 9, 14, 15, 255, 255, 255, 255, 255, 255],
  [2, 3, 4, 5, 6, 7, 8, 9, 14, 15, 255, 255, 255, 255, 255, 255],
  [0, 1, 2, 3, 4, 5, 6, 7, 8, 9, 14, 15, 255, 255, 255, 255],
  [10, 11, 14, 15, 255, 255, 255, 255, 255, 255, 255, 255, 255, 255, 255, 255],
  [0, 1, 10, 11, 14, 15, 255, 255, 255, 255, 255, 255, 255, 255, 255, 255],
  [2, 3, 10, 11, 14, 15, 255, 255, 255, 255, 255, 255, 255, 255, 255, 255],
  [0, 1, 2, 3, 10, 11, 14, 15, 255, 255, 255, 255, 255, 255, 255, 255],
  [4, 5, 10, 11, 14, 15, 255, 255, 255, 255, 255, 255, 255, 255, 255, 255],
  [0, 1, 4, 5, 10, 11, 14, 15, 255, 255, 255, 255, 255, 255, 255, 255],
  [2, 3, 4, 5, 10, 11, 14, 15, 255, 255, 255, 255, 255, 255, 255, 255],
  [0, 1, 2, 3, 4, 5, 10, 11, 14, 15, 255, 255, 255, 255, 255, 255],
  [6, 7, 10, 11, 14, 15, 255, 255, 255, 255, 255, 255, 255, 255, 255, 255],
  [0, 1, 6, 7, 10, 11, 14, 15, 255, 255, 255, 255, 255, 255, 255, 255],
  [2, 3, 6, 7, 10, 11, 14, 15, 255, 255, 255, 255, 255, 255, 255, 255],
  [0, 1, 2, 3, 6, 7, 10, 11, 14, 15, 255, 255, 255, 255, 255, 255],
  [4, 5, 6, 7, 10, 11, 14, 15, 255, 255, 255, 255, 255, 255, 255, 255],
  [0, 1, 4, 5, 6, 7, 10, 11, 14, 15, 255, 255, 255, 255, 255, 255],
  [2, 3, 4, 5, 6, 7, 10, 11, 14, 15, 255, 255, 255, 255, 255, 255],
  [0, 1, 2, 3, 4, 5, 6, 7, 10, 11, 14, 15, 255, 255, 255, 255],
  [8, 9, 10, 11, 14, 15, 255, 255, 255, 255, 255, 255, 255, 255, 255, 255],
  [0, 1, 8, 9, 10, 11, 14, 15, 255, 255, 255, 255, 255, 255, 255, 255],
  [2, 3, 8, 9, 10, 11, 14, 15, 255, 255, 255, 255, 255, 255, 255, 255],
  [0, 1, 2, 3, 8, 9, 10, 11, 14, 15, 255, 255, 255, 255, 255, 255],
  [4, 5, 8, 9, 10, 11, 14, 15, 255, 255, 255, 255, 255, 255, 255, 255],
  [0, 1, 4, 5, 8, 9, 10, 11, 14, 15, 255, 255, 255, 255, 255, 255],
  [2, 3, 4, 5, 8, 9, 10, 11, 14, 15, 255, 255, 255, 255, 255, 255],
  [0, 1, 2, 3, 4, 5, 8, 9, 10, 11, 14, 15, 255, 255, 255, 255],
  [6, 7, 8, 9, 10, 11, 14, 15, 255, 255, 255, 255, 255, 255, 255, 255],
  [0, 1, 6, 7, 8, 9, 10, 11, 14, 15, 255, 255, 255, 255, 255, 255],
  [2, 3, 6, 7, 8, 9, 10, 11, 14, 15, 255, 255, 255, 255, 255, 255],
  [0, 1, 2, 3, 6, 7, 8, 9, 10, 11, 14, 15, 255, 255, 255, 255],
  [4, 5, 6, 7, 8, 9, 10, 11, 14, 15, 255, 255, 255, 255, 255, 255],
  [0, 1, 4, 5, 6, 7, 8, 9, 10, 11, 14, 15, 255, 255, 255, 255],
  [2, 3, 4, 5, 6, 7, 8, 9, 10, 11, 14, 15, 255, 255, 255, 255],
  [0, 1, 2, 3, 4, 5, 6, 7, 8, 9, 10, 11, 14, 15, 255, 255],
  [12, 13, 14, 15, 255, 255, 255, 255, 255, 255, 255, 255, 255, 255, 255, 255],
  [0, 1, 12, 13, 14, 15, 255, 255, 255, 255, 255, 255, 255, 255, 255, 255],
  [2, 3, 12, 13, 14, 15, 255, 255, 255, 255, 255, 255, 255, 255, 255, 255],
  [0, 1, 2, 3, 12, 13, 14, 15, 255, 255, 255, 255, 255, 255, 255, 255],
  [4, 5, 12, 13, 14, 15, 255, 255, 255, 255, 255, 255, 255, 255, 255, 255],
  [0, 1, 4, 5, 12, 13, 14, 15, 255, 255, 255, 255, 255, 255, 255, 255],
  [2, 3, 4, 5, 12, 13, 14, 15, 255, 255, 255, 255, 255, 255, 255, 255],
  [0, 1, 2, 3, 4, 5, 12, 13, 14, 15, 255, 255, 255, 255, 255, 255],
  [6, 7, 12, 13, 14, 15, 255, 255, 255, 255, 255, 255, 255, 255, 255, 255],
  [0, 1, 6, 7, 12, 13, 14, 15, 255, 255, 255, 255, 255, 255, 255, 255],
  [2, 3, 6, 7, 12, 13, 14, 15, 255, 255, 255, 255, 255, 255, 255, 255],
  [0, 1, 2, 3, 6, 7, 12, 13, 14, 15, 255, 255, 255, 255, 255, 255],
  [4, 5, 6, 7, 12, 13, 14, 15, 255, 255, 255, 255, 255, 255, 255, 255],
  [0, 1, 4, 5, 6, 7, 12, 13, 14, 15, 255, 255, 255, 255, 255, 255],
  [2, 3, 4, 5, 6, 7, 12, 13, 14, 15, 255, 255, 255, 255, 255, 255],
  [0, 1, 2, 3, 4, 5, 6, 7, 12, 13, 14, 15, 255, 255, 255, 255],
  [8, 9, 12, 13, 14, 15, 255, 255, 255, 255, 255, 255, 255, 255, 255, 255],
  [0, 1, 8, 9, 12, 13, 14, 15, 255, 255, 255, 255, 255, 255, 255, 255],
  [2, 3, 8, 9, 12, 13, 14, 15, 255, 255, 255, 255, 255, 255, 255, 255],
  [0, 1, 2, 3, 8, 9, 12, 13, 14, 15, 255, 255, 255, 255, 255, 255],
  [4, 5, 8, 9, 12, 13, 14, 15, 255, 255, 255, 255, 255, 255, 255, 255],
  [0, 1, 4, 5, 8, 9, 12, 13, 14, 15, 255, 255, 255, 255, 255, 255],
  [2, 3, 4, 5, 8, 9, 12, 13, 14, 15, 255, 255, 255, 255, 255, 255],
  [0, 1, 2, 3, 4, 5, 8, 9, 12, 13, 14, 15, 255, 255, 255, 255],
  [6, 7, 8, 9, 12, 13, 14, 15, 255, 255, 255, 255, 255, 255, 255, 255],
  [0, 1, 6, 7, 8, 9, 12, 13, 14, 15, 255, 255, 255, 255, 255, 255],
  [2, 3, 6, 7, 8, 9, 12, 13, 14, 15, 255, 255, 255, 255, 255, 255],
  [0, 1, 2, 3, 6, 7, 8, 9, 12, 13, 14, 15, 255, 255, 255, 255],
  [4, 5, 6, 7, 8, 9, 12, 13, 14, 15, 255, 255, 255, 255, 255, 255],
  [0, 1, 4, 5, 6, 7, 8, 9, 12, 13, 14, 15, 255, 255, 255, 255],
  [2, 3, 4, 5, 6, 7, 8, 9, 12, 13, 14, 15, 255, 255, 255, 255],
  [0, 1, 2, 3, 4, 5, 6, 7, 8, 9, 12, 13, 14, 15, 255, 255],
  [10, 11, 12, 13, 14, 15, 255, 255, 255, 255, 255, 255, 255, 255, 255, 255],
  [0, 1, 10, 11, 12, 13, 14, 15, 255, 255, 255, 255, 255, 255, 255, 255],
  [2, 3, 10, 11, 12, 13, 14, 15, 255, 255, 255, 255, 255, 255, 255, 255],
  [0, 1, 2, 3, 10, 11, 12, 13, 14, 15, 255, 255, 255, 255, 255, 255],
  [4, 5, 10, 11, 12, 13, 14, 15, 255, 255, 255, 255, 255, 255, 255, 255],
  [0, 1, 4, 5, 10, 11, 12, 13, 14, 15, 255, 255, 255, 255, 255, 255],
  [2, 3, 4, 5, 10, 11, 12, 13, 14, 15, 255, 255, 255, 255, 255, 255],
  [0, 1, 2, 3, 4, 5, 10, 11, 12, 13, 14, 15, 255, 255, 255, 255],
  [6, 7, 10, 11, 12, 13, 14, 15, 255, 255, 255, 255, 255, 255, 255, 255],
  [0, 1, 6, 7, 10, 11, 12, 13, 14, 15, 255, 255, 255, 255, 255, 255],
  [2, 3, 6, 7, 10, 11, 12, 13, 14, 15, 255, 255, 255, 255, 255, 255],
  [0, 1, 2, 3, 6, 7, 10, 11, 12, 13, 14, 15, 255, 255, 255, 255],
  [4, 5, 6, 7, 10, 11, 12, 13, 14, 15, 255, 255, 255, 255, 255, 255],
  [0, 1, 4, 5, 6, 7, 10, 11, 12, 13, 14, 15, 255, 255, 255, 255],
  [2, 3, 4, 5, 6, 7, 10, 11, 12, 13, 14, 15, 255, 255, 255, 255],
  [0, 1, 2, 3, 4, 5, 6, 7, 10, 11, 12, 13, 14, 15, 255, 255],
  [8, 9, 10, 11, 12, 13, 14, 15, 255, 255, 255, 255, 255, 255, 255, 255],
  [0, 1, 8, 9, 10, 11, 12, 13, 14, 15, 255, 255, 255, 255, 255, 255],
  [2, 3, 8, 9, 10, 11, 12, 13, 14, 15, 255, 255, 255, 255, 255, 255],
  [0, 1, 2, 3, 8, 9, 10, 11, 12, 13, 14, 15, 255, 255, 255, 255],
  [4, 5, 8, 9, 10, 11, 12, 13, 14, 15, 255, 255, 255, 255, 255, 255],
  [0, 1, 4, 5, 8, 9, 10, 11, 12, 13, 14, 15, 255, 255, 255, 255],
  [2, 3, 4, 5, 8, 9, 10, 11, 12, 13, 14, 15, 255, 255, 255, 255],
  [0, 1, 2, 3, 4, 5, 8, 9, 10, 11, 12, 13, 14, 15, 255, 255],
  [6, 7, 8, 9, 10, 11, 12, 13, 14, 15, 255, 255, 255, 255, 255, 255],
  [0, 1, 6, 7, 8, 9, 10, 11, 12, 13, 14, 15, 255, 255, 255, 255],
  [2, 3, 6, 7, 8, 9, 10, 11, 12, 13, 14, 15, 255, 255, 255, 255],
  [0, 1, 2, 3, 6, 7, 8, 9, 10, 11, 12, 13, 14, 15, 255, 255],
  [4, 5, 6, 7, 8, 9, 10, 11, 12, 13, 14, 15, 255, 255, 255, 255],
  [0, 1, 4, 5, 6, 7, 8, 9, 10, 11, 12, 13, 14, 15, 255, 255],
  [2, 3, 4, 5, 6, 7, 8, 9, 10, 11, 12, 13, 14, 15, 255, 255],
  [0, 1, 2, 3, 4, 5, 6, 7, 8, 9, 10, 11, 12, 13, 14, 15]]

/-- Byte `j` of row `m`. -/
def rejByte (m j : Nat) : Byte := BitVec.ofNat 8 ((rejRows.getD m []).getD j 0)
/-- The table as bytes. -/
def rejTable : Bytes := (List.range 4096).map fun i => rejByte (i / 16) (i % 16)

end Verif.MlKem.X86
