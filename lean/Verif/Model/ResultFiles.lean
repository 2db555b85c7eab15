import Verif.Model.CacheLength

/-! # The checked-in results of tests/verify_cache_length.cpp

The second columns of test_results/binary32_negative_k.csv, test_results/binary32_positive_k.csv,
test_results/binary64_negative_k.csv and test_results/binary64_positive_k.csv; the first columns are consecutive exponents,
ascending from -2 in the files for negative `k` and descending from -3 in the others. -/

namespace Grisu.ResultFiles

/-- test_results/binary32_negative_k.csv. -/
def binary32_negative_k : List Nat := [
  30, 31, 32, 32, 33, 34, 34, 35, 36, 37, 37, 38, 39, 39, 40, 41, 41, 42, 43, 44, 44, 45, 46, 46, 47, 48, 48,
  49, 50, 51, 51, 52, 53, 53, 54, 55, 52, 54, 55, 56, 53, 53, 54, 53, 53, 55, 52, 54, 55, 56, 53, 53, 53, 53,
  54, 55, 55, 55, 55, 55, 54, 55, 56, 54, 55, 56, 54, 54, 54, 54, 51, 51, 51, 51, 51, 51, 52, 52, 52, 52, 51,
  51, 51, 51, 51, 52, 53, 54, 56, 57, 52, 53, 56, 53, 53, 54, 52, 53, 55]

/-- test_results/binary32_positive_k.csv. -/
def binary32_positive_k : List Nat := [
  1, 1, 1, 1, 3, 3, 3, 5, 5, 5, 7, 7, 7, 10, 10, 10, 10, 12, 12, 12, 14, 14, 14, 17, 17, 17, 17, 19, 19, 19,
  21, 21, 21, 24, 24, 24, 24, 26, 26, 26, 28, 28, 28, 31, 31, 31, 31, 33, 33, 33, 35, 35, 35, 38, 38, 38, 38,
  40, 40, 40, 42, 42, 42, 45, 45, 45, 45, 47, 47, 47, 49, 49, 49, 52, 52, 52, 52, 53, 52, 52, 55, 55, 54, 56,
  56, 54, 53, 55, 53, 53, 56, 55, 54, 57, 54, 53, 52, 56, 55, 55, 55, 55, 53, 55, 55, 52, 57, 57, 57, 57, 56,
  56, 56, 56, 56, 53, 56, 55, 54, 53, 55, 55, 55, 57, 53, 53, 56, 56, 55, 55, 54, 50, 49, 58, 58, 58, 61, 60,
  60, 59, 61, 60, 59, 58, 57, 53, 55, 54, 53, 52, 54, 53, 53, 57, 57]

/-- test_results/binary64_negative_k.csv, rows 1 to 240. -/
def binary64_negative_k_0 : List Nat := [
  62, 63, 64, 64, 65, 66, 66, 67, 68, 69, 69, 70, 71, 71, 72, 73, 73, 74, 75, 76, 76, 77, 78, 78, 79, 80, 80,
  81, 82, 83, 83, 84, 85, 85, 86, 87, 87, 88, 89, 90, 90, 91, 92, 92, 93, 94, 94, 95, 96, 97, 97, 98, 99, 99,
  100, 101, 101, 102, 103, 104, 104, 105, 106, 106, 107, 108, 108, 109, 110, 111, 111, 112, 113, 113, 114,
  115, 114, 115, 116, 117, 114, 119, 119, 119, 119, 119, 114, 116, 116, 119, 114, 115, 116, 113, 114, 115,
  113, 114, 115, 113, 114, 115, 116, 113, 114, 115, 113, 113, 114, 114, 114, 115, 115, 111, 111, 113, 113,
  116, 117, 115, 115, 115, 115, 114, 115, 116, 116, 116, 120, 114, 115, 116, 121, 114, 115, 116, 110, 113,
  116, 113, 117, 117, 117, 115, 116, 118, 111, 113, 115, 111, 115, 116, 117, 114, 114, 114, 112, 113, 114,
  112, 113, 114, 115, 114, 115, 116, 113, 114, 115, 113, 116, 117, 118, 115, 116, 117, 115, 116, 117, 115,
  116, 116, 116, 113, 114, 115, 113, 114, 115, 114, 117, 117, 114, 114, 114, 116, 111, 111, 116, 114, 115,
  116, 116, 116, 116, 120, 112, 112, 112, 110, 110, 110, 110, 111, 113, 115, 115, 116, 117, 117, 117, 117,
  114, 114, 115, 116, 114, 114, 115, 114, 114, 115, 115, 116, 117, 118, 117, 118, 119, 117]

/-- test_results/binary64_negative_k.csv, rows 241 to 480. -/
def binary64_negative_k_1 : List Nat := [
  118, 118, 116, 116, 116, 118, 115, 115, 115, 115, 115, 115, 114, 115, 116, 117, 114, 114, 114, 113, 114,
  115, 112, 115, 116, 117, 116, 116, 116, 112, 114, 114, 112, 115, 115, 115, 114, 114, 114, 114, 114, 115,
  114, 115, 116, 117, 114, 115, 116, 114, 115, 116, 115, 115, 116, 115, 115, 115, 117, 111, 112, 114, 115,
  116, 117, 115, 116, 117, 118, 113, 114, 114, 114, 115, 116, 114, 115, 116, 116, 115, 116, 117, 113, 114,
  115, 111, 113, 117, 118, 114, 115, 116, 114, 116, 117, 117, 118, 118, 118, 113, 113, 115, 115, 116, 117,
  114, 114, 115, 116, 114, 115, 116, 116, 116, 116, 114, 118, 118, 118, 118, 118, 118, 114, 116, 117, 115,
  115, 116, 117, 115, 115, 116, 114, 117, 117, 114, 119, 120, 121, 114, 115, 116, 114, 115, 115, 113, 114,
  120, 113, 114, 117, 117, 114, 115, 116, 117, 118, 118, 118, 118, 118, 118, 114, 114, 116, 115, 116, 116,
  113, 114, 117, 117, 116, 116, 116, 114, 115, 116, 114, 115, 116, 117, 114, 115, 116, 114, 115, 115, 114,
  115, 116, 116, 114, 114, 114, 113, 114, 117, 113, 113, 115, 115, 114, 114, 115, 115, 115, 116, 114, 115,
  116, 117, 115, 115, 115, 112, 113, 115, 115, 115, 115, 115, 114, 115, 116, 113, 115, 116, 116, 117, 118,
  119, 119, 120, 121, 121, 122, 123, 121, 122]

/-- test_results/binary64_negative_k.csv, rows 481 to 720. -/
def binary64_negative_k_2 : List Nat := [
  123, 123, 120, 120, 120, 118, 118, 118, 112, 115, 115, 115, 115, 117, 118, 110, 110, 112, 108, 109, 111,
  111, 113, 115, 115, 114, 114, 114, 115, 116, 117, 115, 115, 117, 117, 114, 114, 114, 114, 115, 116, 113,
  114, 116, 125, 109, 109, 109, 109, 109, 110, 110, 115, 116, 118, 116, 116, 116, 113, 114, 114, 111, 112,
  114, 115, 111, 113, 114, 114, 115, 116, 113, 114, 115, 117, 116, 116, 116, 113, 114, 116, 115, 116, 117,
  118, 115, 116, 117, 115, 115, 116, 111, 111, 112, 118, 113, 115, 116, 113, 114, 115, 113, 114, 116, 112,
  114, 114, 115, 115, 116, 117, 114, 115, 118, 113, 113, 115, 116, 115, 115, 115, 113, 116, 116, 112, 114,
  115, 117, 115, 116, 117, 115, 115, 117, 115, 116, 116, 116, 113, 121, 121, 113, 117, 117, 117, 117, 117,
  117, 114, 115, 118, 113, 113, 114, 114, 114, 120, 120, 113, 115, 116, 112, 113, 115, 114, 114, 115, 117,
  115, 116, 117, 115, 116, 117, 115, 115, 115, 115, 112, 112, 112, 113, 114, 115, 113, 113, 113, 113, 112,
  112, 113, 113, 114, 115, 115, 115, 116, 116, 116, 116, 117, 114, 115, 116, 114, 117, 117, 114, 116, 116,
  116, 114, 114, 115, 111, 112, 115, 111, 112, 114, 117, 111, 112, 118, 113, 114, 115, 113, 114, 115, 117,
  113, 123, 124, 113, 116, 117, 114, 116, 117]

/-- test_results/binary64_negative_k.csv, rows 721 to 960. -/
def binary64_negative_k_3 : List Nat := [
  118, 115, 115, 115, 115, 115, 115, 115, 116, 116, 117, 116, 116, 117, 111, 111, 114, 113, 115, 115, 115,
  114, 114, 114, 114, 114, 114, 113, 115, 115, 116, 113, 114, 117, 115, 116, 117, 117, 117, 117, 117, 114,
  114, 115, 114, 115, 116, 113, 113, 116, 116, 114, 115, 116, 116, 117, 117, 114, 115, 116, 114, 120, 120,
  120, 112, 112, 113, 113, 114, 116, 114, 118, 118, 118, 113, 114, 117, 113, 113, 113, 114, 114, 114, 114,
  113, 113, 113, 113, 113, 119, 119, 120, 121, 122, 113, 115, 116, 113, 114, 114, 113, 114, 115, 117, 115,
  116, 117, 115, 118, 119, 114, 118, 119, 120, 115, 115, 115, 113, 113, 114, 114, 115, 117, 117, 114, 115,
  116, 114, 115, 116, 114, 115, 116, 117, 114, 115, 116, 114, 115, 116, 114, 115, 116, 117, 113, 113, 116,
  112, 114, 116, 112, 114, 115, 114, 115, 116, 117, 114, 116, 116, 115, 116, 117, 115, 115, 115, 117, 116,
  117, 118, 113, 113, 115, 115, 116, 117, 117, 113, 118, 119, 119, 120, 121, 119, 119, 119, 119, 112, 112,
  115, 110, 112, 114, 110, 112, 113, 116, 115, 116, 117, 114, 116, 116, 112, 114, 120, 121, 120, 121, 121,
  114, 115, 116, 116, 117, 117, 117, 113, 122, 122, 114, 114, 115, 113, 114, 117, 117, 113, 114, 115, 112,
  114, 114, 114, 115, 116, 117, 115, 115, 116]

/-- test_results/binary64_negative_k.csv, rows 961 to 963. -/
def binary64_negative_k_4 : List Nat := [
  115, 115, 115]

/-- test_results/binary64_negative_k.csv. -/
def binary64_negative_k : List Nat :=
  binary64_negative_k_0 ++ binary64_negative_k_1 ++ binary64_negative_k_2 ++ binary64_negative_k_3 ++ binary64_negative_k_4

/-- test_results/binary64_positive_k.csv, rows 1 to 240. -/
def binary64_positive_k_0 : List Nat := [
  1, 1, 1, 1, 3, 3, 3, 5, 5, 5, 7, 7, 7, 10, 10, 10, 10, 12, 12, 12, 14, 14, 14, 17, 17, 17, 17, 19, 19, 19,
  21, 21, 21, 24, 24, 24, 24, 26, 26, 26, 28, 28, 28, 31, 31, 31, 31, 33, 33, 33, 35, 35, 35, 38, 38, 38, 38,
  40, 40, 40, 42, 42, 42, 45, 45, 45, 45, 47, 47, 47, 49, 49, 49, 52, 52, 52, 52, 54, 54, 54, 56, 56, 56, 59,
  59, 59, 59, 61, 61, 61, 63, 63, 63, 66, 66, 66, 66, 68, 68, 68, 70, 70, 70, 72, 72, 72, 75, 75, 75, 75, 77,
  77, 77, 79, 79, 79, 82, 82, 82, 82, 84, 84, 84, 86, 86, 86, 89, 89, 89, 89, 91, 91, 91, 93, 93, 93, 96, 96,
  96, 96, 98, 98, 98, 100, 100, 100, 103, 103, 103, 103, 105, 105, 105, 107, 107, 107, 110, 110, 110, 110,
  112, 112, 112, 114, 114, 114, 117, 114, 114, 114, 114, 114, 114, 114, 113, 113, 117, 117, 117, 117, 117,
  117, 116, 115, 115, 114, 117, 117, 116, 116, 118, 118, 114, 116, 116, 116, 116, 115, 114, 117, 117, 116,
  115, 115, 115, 115, 115, 115, 114, 115, 115, 115, 114, 116, 116, 116, 116, 115, 114, 118, 117, 117, 110,
  115, 114, 114, 117, 117, 117, 118, 115, 114, 113, 115, 114, 113, 113, 111, 110, 114]

/-- test_results/binary64_positive_k.csv, rows 241 to 480. -/
def binary64_positive_k_1 : List Nat := [
  114, 114, 114, 117, 117, 116, 115, 115, 114, 117, 117, 117, 117, 119, 118, 118, 118, 117, 114, 119, 119,
  119, 119, 119, 115, 115, 116, 115, 115, 116, 116, 114, 113, 118, 118, 118, 118, 118, 114, 117, 116, 116,
  116, 118, 117, 117, 119, 118, 117, 119, 116, 115, 114, 115, 115, 115, 118, 118, 118, 117, 115, 112, 117,
  115, 114, 113, 115, 114, 114, 115, 115, 114, 117, 117, 116, 114, 117, 116, 114, 116, 116, 115, 117, 116,
  115, 114, 115, 114, 112, 116, 115, 115, 120, 116, 115, 114, 117, 116, 114, 116, 116, 115, 121, 121, 116,
  116, 115, 114, 114, 116, 115, 115, 118, 117, 117, 116, 117, 115, 115, 117, 117, 116, 119, 119, 118, 117,
  117, 116, 115, 115, 114, 113, 119, 116, 115, 114, 117, 117, 114, 118, 118, 117, 118, 116, 114, 113, 116,
  114, 113, 117, 115, 114, 116, 115, 114, 116, 116, 114, 113, 116, 114, 113, 115, 114, 114, 119, 119, 118,
  114, 116, 115, 115, 117, 116, 115, 118, 117, 116, 114, 119, 114, 113, 115, 115, 113, 119, 115, 115, 114,
  115, 115, 115, 118, 118, 115, 116, 115, 114, 114, 120, 115, 113, 115, 114, 114, 119, 117, 116, 116, 117,
  114, 114, 118, 115, 112, 120, 119, 115, 114, 119, 118, 114, 115, 114, 113, 119, 116, 115, 114, 116, 115,
  114, 116, 115, 115, 119, 116, 116, 116, 115]

/-- test_results/binary64_positive_k.csv, rows 481 to 720. -/
def binary64_positive_k_2 : List Nat := [
  114, 114, 116, 114, 113, 116, 115, 114, 113, 116, 114, 114, 116, 114, 113, 119, 115, 114, 116, 115, 114,
  114, 116, 115, 115, 116, 116, 114, 118, 117, 114, 114, 117, 116, 114, 117, 117, 115, 119, 118, 116, 116,
  118, 116, 115, 116, 115, 114, 117, 117, 117, 117, 116, 116, 116, 116, 115, 115, 118, 116, 115, 115, 115,
  115, 115, 115, 114, 114, 118, 116, 114, 113, 118, 115, 115, 116, 116, 113, 117, 116, 116, 114, 117, 117,
  116, 116, 116, 114, 118, 118, 115, 114, 115, 115, 115, 117, 116, 116, 119, 119, 115, 115, 117, 117, 114,
  115, 114, 113, 118, 118, 115, 116, 116, 116, 114, 118, 115, 114, 116, 115, 114, 114, 113, 113, 113, 116,
  115, 115, 117, 116, 115, 125, 124, 114, 113, 118, 115, 111, 115, 115, 114, 118, 116, 116, 114, 115, 114,
  113, 116, 115, 111, 117, 116, 114, 114, 116, 114, 114, 114, 113, 113, 118, 117, 117, 116, 118, 117, 116,
  116, 114, 114, 118, 118, 112, 112, 115, 115, 114, 116, 116, 115, 118, 117, 116, 115, 117, 116, 115, 118,
  117, 114, 117, 117, 116, 115, 115, 114, 113, 115, 114, 114, 116, 115, 115, 119, 115, 113, 113, 117, 117,
  114, 118, 118, 117, 117, 116, 116, 113, 119, 114, 114, 115, 114, 113, 117, 115, 113, 111, 116, 113, 112,
  116, 113, 112, 116, 115, 115, 114, 116, 115]

/-- test_results/binary64_positive_k.csv, rows 721 to 960. -/
def binary64_positive_k_3 : List Nat := [
  114, 116, 115, 115, 123, 117, 116, 116, 119, 119, 119, 119, 119, 114, 117, 116, 114, 113, 117, 116, 116,
  116, 115, 115, 116, 116, 116, 113, 115, 115, 113, 116, 116, 115, 118, 117, 116, 115, 117, 116, 115, 117,
  116, 115, 118, 117, 116, 115, 115, 115, 114, 116, 115, 113, 119, 118, 114, 114, 115, 115, 115, 115, 115,
  113, 117, 115, 115, 119, 118, 116, 114, 115, 114, 113, 115, 114, 112, 117, 117, 116, 116, 115, 115, 115,
  116, 115, 114, 115, 114, 113, 112, 114, 114, 114, 116, 115, 115, 117, 115, 114, 113, 115, 115, 110, 116,
  116, 116, 117, 116, 116, 116, 116, 115, 115, 115, 114, 114, 117, 117, 116, 114, 119, 119, 119, 118, 117,
  117, 118, 116, 115, 113, 116, 115, 113, 117, 117, 116, 119, 119, 118, 117, 119, 118, 117, 117, 116, 106,
  120, 120, 120, 120, 120, 120, 120, 119, 118, 118, 118, 115, 115, 116, 115, 115, 114, 117, 117, 117, 117,
  115, 115, 117, 116, 115, 115, 117, 116, 116, 116, 115, 115, 116, 115, 115, 115, 116, 115, 114, 116, 115,
  115, 118, 117, 116, 115, 117, 117, 117, 116, 115, 113, 119, 116, 115, 113, 117, 116, 113, 116, 116, 113,
  116, 115, 115, 113, 115, 115, 115, 116, 116, 114, 117, 117, 115, 114, 118, 115, 114, 116, 115, 115, 119,
  119, 115, 115, 118, 117, 117, 116, 115, 115]

/-- test_results/binary64_positive_k.csv, rows 961 to 1083. -/
def binary64_positive_k_4 : List Nat := [
  117, 117, 114, 113, 114, 113, 112, 114, 114, 114, 119, 119, 115, 114, 116, 116, 115, 115, 114, 114, 116,
  116, 116, 117, 117, 115, 115, 119, 115, 115, 116, 115, 113, 115, 115, 114, 114, 116, 115, 113, 117, 116,
  116, 118, 115, 115, 114, 115, 115, 114, 116, 116, 115, 117, 117, 115, 114, 114, 114, 114, 117, 116, 116,
  117, 115, 114, 113, 116, 114, 114, 117, 117, 117, 118, 118, 117, 117, 117, 114, 114, 117, 115, 115, 116,
  115, 114, 114, 115, 115, 113, 116, 114, 114, 116, 116, 114, 113, 119, 115, 115, 118, 114, 113, 116, 115,
  114, 114, 114, 114, 114, 116, 116, 115, 117, 116, 114, 117, 116, 116, 116, 116, 114, 113]

/-- test_results/binary64_positive_k.csv. -/
def binary64_positive_k : List Nat :=
  binary64_positive_k_0 ++ binary64_positive_k_1 ++ binary64_positive_k_2 ++ binary64_positive_k_3 ++ binary64_positive_k_4

end Grisu.ResultFiles
