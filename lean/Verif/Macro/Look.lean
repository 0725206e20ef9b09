import Verif.Macro.Codes
/-
The entries of the table, and the ranks, of the macros in the proofs.
-/
namespace H2.Macro

theorem dH2PP_COMMA {user : String → Option Macro} : defs user "H2PP_COMMA" = some ⟨some (0, true), [.tok .comma]⟩ :=
  defs_at 5 rfl
theorem rH2PP_COMMA {N : List String} [Free N] : rank N "H2PP_COMMA" = 0 :=
  rank_at 0 ['H', '2', 'P', 'P', '_', 'C', 'O', 'M', 'M', 'A'] rfl (reserved_begins rfl) rfl
theorem dH2PP_EMPTY {user : String → Option Macro} : defs user "H2PP_EMPTY" = some ⟨some (0, true), []⟩ :=
  defs_at 6 rfl
theorem rH2PP_EMPTY {N : List String} [Free N] : rank N "H2PP_EMPTY" = 0 :=
  rank_at 1 ['H', '2', 'P', 'P', '_', 'E', 'M', 'P', 'T', 'Y'] rfl (reserved_begins rfl) rfl
theorem d_H2PP_64TH {user : String → Option Macro} : defs user "_H2PP_64TH" = some ⟨some (65, true), [.arg 64]⟩ :=
  defs_at 272 rfl
theorem r_H2PP_64TH {N : List String} [Free N] : rank N "_H2PP_64TH" = 0 :=
  rank_at 2 ['_', 'H', '2', 'P', 'P', '_', '6', '4', 'T', 'H'] rfl (reserved_begins rfl) rfl
theorem d__H2PP_FOREACH {user : String → Option Macro} : defs user "__H2PP_FOREACH" = some ⟨some (0, false), [.tok (.id "_H2PP_FOREACH")]⟩ :=
  defs_at 77 rfl
theorem r__H2PP_FOREACH {N : List String} [Free N] : rank N "__H2PP_FOREACH" = 0 :=
  rank_at 3 ['_', '_', 'H', '2', 'P', 'P', '_', 'F', 'O', 'R', 'E', 'A', 'C', 'H'] rfl (reserved_begins rfl) rfl
theorem d__H2PP_REPEAT {user : String → Option Macro} : defs user "__H2PP_REPEAT" = some ⟨some (0, false), [.tok (.id "_H2PP_REPEAT")]⟩ :=
  defs_at 69 rfl
theorem r__H2PP_REPEAT {N : List String} [Free N] : rank N "__H2PP_REPEAT" = 0 :=
  rank_at 4 ['_', '_', 'H', '2', 'P', 'P', '_', 'R', 'E', 'P', 'E', 'A', 'T'] rfl (reserved_begins rfl) rfl
theorem d__H2PP_LAST {user : String → Option Macro} : defs user "__H2PP_LAST" = some ⟨some (0, false), [.tok (.id "_H2PP_LAST_0")]⟩ :=
  defs_at 64 rfl
theorem r__H2PP_LAST {N : List String} [Free N] : rank N "__H2PP_LAST" = 0 :=
  rank_at 5 ['_', '_', 'H', '2', 'P', 'P', '_', 'L', 'A', 'S', 'T'] rfl (reserved_begins rfl) rfl
theorem d__H2PP_FOREACHx {user : String → Option Macro} : defs user "__H2PP_FOREACHx" = some ⟨some (0, false), [.tok (.id "_H2PP_FOREACHx")]⟩ :=
  defs_at 92 rfl
theorem r__H2PP_FOREACHx {N : List String} [Free N] : rank N "__H2PP_FOREACHx" = 0 :=
  rank_at 6 ['_', '_', 'H', '2', 'P', 'P', '_', 'F', 'O', 'R', 'E', 'A', 'C', 'H', 'x'] rfl (reserved_begins rfl) rfl
theorem d__H2PP_FOREACHy {user : String → Option Macro} : defs user "__H2PP_FOREACHy" = some ⟨some (0, false), [.tok (.id "_H2PP_FOREACHy")]⟩ :=
  defs_at 96 rfl
theorem r__H2PP_FOREACHy {N : List String} [Free N] : rank N "__H2PP_FOREACHy" = 0 :=
  rank_at 7 ['_', '_', 'H', '2', 'P', 'P', '_', 'F', 'O', 'R', 'E', 'A', 'C', 'H', 'y'] rfl (reserved_begins rfl) rfl
theorem d_H2PP_REMOVE_PARENTHESES {user : String → Option Macro} : defs user "_H2PP_REMOVE_PARENTHESES" = some ⟨some (0, true), [.arg 0]⟩ :=
  defs_at 38 rfl
theorem r_H2PP_REMOVE_PARENTHESES {N : List String} [Free N] : rank N "_H2PP_REMOVE_PARENTHESES" = 0 :=
  rank_at 8 ['_', 'H', '2', 'P', 'P', '_', 'R', 'E', 'M', 'O', 'V', 'E', '_', 'P', 'A', 'R', 'E', 'N', 'T', 'H', 'E', 'S', 'E', 'S'] rfl (reserved_begins rfl) rfl
theorem d_H2PP_HEAD_0_R {user : String → Option Macro} : defs user "_H2PP_HEAD_0_R" = some ⟨some (1, true), [.arg 0]⟩ :=
  defs_at 52 rfl
theorem r_H2PP_HEAD_0_R {N : List String} [Free N] : rank N "_H2PP_HEAD_0_R" = 0 :=
  rank_at 9 ['_', 'H', '2', 'P', 'P', '_', 'H', 'E', 'A', 'D', '_', '0', '_', 'R'] rfl (reserved_begins rfl) rfl
theorem d_H2PP_TAIL_0_R {user : String → Option Macro} : defs user "_H2PP_TAIL_0_R" = some ⟨some (1, true), [.arg 1]⟩ :=
  defs_at 56 rfl
theorem r_H2PP_TAIL_0_R {N : List String} [Free N] : rank N "_H2PP_TAIL_0_R" = 0 :=
  rank_at 10 ['_', 'H', '2', 'P', 'P', '_', 'T', 'A', 'I', 'L', '_', '0', '_', 'R'] rfl (reserved_begins rfl) rfl
theorem d_H2PP_IS_BEGIN_PARENTHESIS_PROBE {user : String → Option Macro} : defs user "_H2PP_IS_BEGIN_PARENTHESIS_PROBE" = some ⟨some (0, true), [.tok (.id "H2PP_PROBE"), .tok .lp, .tok .rp]⟩ :=
  defs_at 35 rfl
theorem r_H2PP_IS_BEGIN_PARENTHESIS_PROBE {N : List String} [Free N] : rank N "_H2PP_IS_BEGIN_PARENTHESIS_PROBE" = 0 :=
  rank_at 11 ['_', 'H', '2', 'P', 'P', '_', 'I', 'S', '_', 'B', 'E', 'G', 'I', 'N', '_', 'P', 'A', 'R', 'E', 'N', 'T', 'H', 'E', 'S', 'I', 'S', '_', 'P', 'R', 'O', 'B', 'E'] rfl (reserved_begins rfl) rfl
theorem dH2PP_PROBE {user : String → Option Macro} : defs user "H2PP_PROBE" = some ⟨some (0, false), [.tok (.other "~"), .tok .comma, .tok (.num "1"), .tok .comma]⟩ :=
  defs_at 13 rfl
theorem rH2PP_PROBE {N : List String} [Free N] : rank N "H2PP_PROBE" = 0 :=
  rank_at 12 ['H', '2', 'P', 'P', '_', 'P', 'R', 'O', 'B', 'E'] rfl (reserved_begins rfl) rfl
theorem d_H2PP_IS_EMPTY_CASE_0001 {user : String → Option Macro} : defs user "_H2PP_IS_EMPTY_CASE_0001" = some ⟨none, [.tok .comma]⟩ :=
  defs_at 44 rfl
theorem r_H2PP_IS_EMPTY_CASE_0001 {N : List String} [Free N] : rank N "_H2PP_IS_EMPTY_CASE_0001" = 0 :=
  rank_at 13 ['_', 'H', '2', 'P', 'P', '_', 'I', 'S', '_', 'E', 'M', 'P', 'T', 'Y', '_', 'C', 'A', 'S', 'E', '_', '0', '0', '0', '1'] rfl (reserved_begins rfl) rfl
theorem d_H2PP_NOT_0 {user : String → Option Macro} : defs user "_H2PP_NOT_0" = some ⟨none, [.tok (.id "H2PP_PROBE"), .tok .lp, .tok .rp]⟩ :=
  defs_at 17 rfl
theorem r_H2PP_NOT_0 {N : List String} [Free N] : rank N "_H2PP_NOT_0" = 1 :=
  rank_at 14 ['_', 'H', '2', 'P', 'P', '_', 'N', 'O', 'T', '_', '0'] rfl (reserved_begins rfl) rfl
theorem d_H2PP_TH1 {user : String → Option Macro} : defs user "_H2PP_TH1" = some ⟨some (2, true), [.arg 1]⟩ :=
  defs_at 137 rfl
theorem r_H2PP_TH1 {N : List String} [Free N] : rank N "_H2PP_TH1" = 1 :=
  rank_at 15 ['_', 'H', '2', 'P', 'P', '_', 'T', 'H', '1'] rfl (reserved_begins rfl) rfl
theorem dH2PP_RESCAN {user : String → Option Macro} : defs user "H2PP_RESCAN" = some ⟨some (1, false), [.arg 0]⟩ :=
  defs_at 8 rfl
theorem rH2PP_RESCAN {N : List String} [Free N] : rank N "H2PP_RESCAN" = 1 :=
  rank_at 16 ['H', '2', 'P', 'P', '_', 'R', 'E', 'S', 'C', 'A', 'N'] rfl (reserved_begins rfl) rfl
theorem d_H2PP_CAT2 {user : String → Option Macro} : defs user "_H2PP_CAT2" = some ⟨some (2, false), [.cat [.raw 0, .raw 1]]⟩ :=
  defs_at 2 rfl
theorem r_H2PP_CAT2 {N : List String} [Free N] : rank N "_H2PP_CAT2" = 1 :=
  rank_at 17 ['_', 'H', '2', 'P', 'P', '_', 'C', 'A', 'T', '2'] rfl (reserved_begins rfl) rfl
theorem d_H2PP_CAT5 {user : String → Option Macro} : defs user "_H2PP_CAT5" = some ⟨some (5, false), [.cat [.raw 0, .raw 1, .raw 2, .raw 3, .raw 4]]⟩ :=
  defs_at 4 rfl
theorem r_H2PP_CAT5 {N : List String} [Free N] : rank N "_H2PP_CAT5" = 1 :=
  rank_at 18 ['_', 'H', '2', 'P', 'P', '_', 'C', 'A', 'T', '5'] rfl (reserved_begins rfl) rfl
theorem dH2PP_CAT {user : String → Option Macro} : defs user "H2PP_CAT" = some ⟨some (2, false), [.tok (.id "_H2PP_CAT2"), .tok .lp, .arg 0, .tok .comma, .arg 1, .tok .rp]⟩ :=
  defs_at 0 rfl
theorem rH2PP_CAT {N : List String} [Free N] : rank N "H2PP_CAT" = 2 :=
  rank_at 19 ['H', '2', 'P', 'P', '_', 'C', 'A', 'T'] rfl (reserved_begins rfl) rfl
theorem dH2PP_CAT2 {user : String → Option Macro} : defs user "H2PP_CAT2" = some ⟨some (2, false), [.tok (.id "_H2PP_CAT2"), .tok .lp, .arg 0, .tok .comma, .arg 1, .tok .rp]⟩ :=
  defs_at 1 rfl
theorem rH2PP_CAT2 {N : List String} [Free N] : rank N "H2PP_CAT2" = 2 :=
  rank_at 20 ['H', '2', 'P', 'P', '_', 'C', 'A', 'T', '2'] rfl (reserved_begins rfl) rfl
theorem dH2PP_CAT5 {user : String → Option Macro} : defs user "H2PP_CAT5" = some ⟨some (5, false), [.tok (.id "_H2PP_CAT5"), .tok .lp, .arg 0, .tok .comma, .arg 1, .tok .comma, .arg 2, .tok .comma, .arg 3, .tok .comma, .arg 4, .tok .rp]⟩ :=
  defs_at 3 rfl
theorem rH2PP_CAT5 {N : List String} [Free N] : rank N "H2PP_CAT5" = 2 :=
  rank_at 21 ['H', '2', 'P', 'P', '_', 'C', 'A', 'T', '5'] rfl (reserved_begins rfl) rfl
theorem d_H2PP_PROXY {user : String → Option Macro} : defs user "_H2PP_PROXY" = some ⟨some (2, false), [.tok (.id "H2PP_RESCAN"), .tok .lp, .arg 0, .arg 1, .tok .rp]⟩ :=
  defs_at 11 rfl
theorem r_H2PP_PROXY {N : List String} [Free N] : rank N "_H2PP_PROXY" = 2 :=
  rank_at 22 ['_', 'H', '2', 'P', 'P', '_', 'P', 'R', 'O', 'X', 'Y'] rfl (reserved_begins rfl) rfl
theorem dH2PP_PROXY {user : String → Option Macro} : defs user "H2PP_PROXY" = some ⟨some (2, false), [.tok (.id "_H2PP_PROXY"), .tok .lp, .arg 0, .tok .comma, .arg 1, .tok .rp]⟩ :=
  defs_at 9 rfl
theorem rH2PP_PROXY {N : List String} [Free N] : rank N "H2PP_PROXY" = 3 :=
  rank_at 23 ['H', '2', 'P', 'P', '_', 'P', 'R', 'O', 'X', 'Y'] rfl (reserved_begins rfl) rfl
theorem dH2PP_IS_PROBE {user : String → Option Macro} : defs user "H2PP_IS_PROBE" = some ⟨some (0, true), [.tok (.id "_H2PP_TH1"), .tok .lp, .arg 0, .tok .comma, .tok (.num "0"), .tok .comma, .tok .rp]⟩ :=
  defs_at 12 rfl
theorem rH2PP_IS_PROBE {N : List String} [Free N] : rank N "H2PP_IS_PROBE" = 3 :=
  rank_at 24 ['H', '2', 'P', 'P', '_', 'I', 'S', '_', 'P', 'R', 'O', 'B', 'E'] rfl (reserved_begins rfl) rfl
theorem dH2PP_HAS_COMMA {user : String → Option Macro} : defs user "H2PP_HAS_COMMA" = some ⟨some (0, true), [.tok (.id "H2PP_PROXY"), .tok .lp, .tok (.id "_H2PP_64TH"), .tok .comma, .tok .lp, .arg 0, .tok .comma, .tok (.num "1"), .tok .comma, .tok (.num "1"), .tok .comma, .tok (.num "1"), .tok .comma, .tok (.num "1"), .tok .comma, .tok (.num "1"), .tok .comma, .tok (.num "1"), .tok .comma, .tok (.num "1"), .tok .comma, .tok (.num "1"), .tok .comma, .tok (.num "1"), .tok .comma, .tok (.num "1"), .tok .comma, .tok (.num "1"), .tok .comma, .tok (.num "1"), .tok .comma, .tok (.num "1"), .tok .comma, .tok (.num "1"), .tok .comma, .tok (.num "1"), .tok .comma, .tok (.num "1"), .tok .comma, .tok (.num "1"), .tok .comma, .tok (.num "1"), .tok .comma, .tok (.num "1"), .tok .comma, .tok (.num "1"), .tok .comma, .tok (.num "1"), .tok .comma, .tok (.num "1"), .tok .comma, .tok (.num "1"), .tok .comma, .tok (.num "1"), .tok .comma, .tok (.num "1"), .tok .comma, .tok (.num "1"), .tok .comma, .tok (.num "1"), .tok .comma, .tok (.num "1"), .tok .comma, .tok (.num "1"), .tok .comma, .tok (.num "1"), .tok .comma, .tok (.num "1"), .tok .comma, .tok (.num "1"), .tok .comma, .tok (.num "1"), .tok .comma, .tok (.num "1"), .tok .comma, .tok (.num "1"), .tok .comma, .tok (.num "1"), .tok .comma, .tok (.num "1"), .tok .comma, .tok (.num "1"), .tok .comma, .tok (.num "1"), .tok .comma, .tok (.num "1"), .tok .comma, .tok (.num "1"), .tok .comma, .tok (.num "1"), .tok .comma, .tok (.num "1"), .tok .comma, .tok (.num "1"), .tok .comma, .tok (.num "1"), .tok .comma, .tok (.num "1"), .tok .comma, .tok (.num "1"), .tok .comma, .tok (.num "1"), .tok .comma, .tok (.num "1"), .tok .comma, .tok (.num "1"), .tok .comma, .tok (.num "1"), .tok .comma, .tok (.num "1"), .tok .comma, .tok (.num "1"), .tok .comma, .tok (.num "1"), .tok .comma, .tok (.num "1"), .tok .comma, .tok (.num "1"), .tok .comma, .tok (.num "1"), .tok .comma, .tok (.num "1"), .tok .comma, .tok (.num "1"), .tok .comma, .tok (.num "1"), .tok .comma, .tok (.num "1"), .tok .comma, .tok (.num "1"), .tok .comma, .tok (.num "1"), .tok .comma, .tok (.num "0"), .tok .rp, .tok .rp]⟩ :=
  defs_at 273 rfl
theorem rH2PP_HAS_COMMA {N : List String} [Free N] : rank N "H2PP_HAS_COMMA" = 4 :=
  rank_at 25 ['H', '2', 'P', 'P', '_', 'H', 'A', 'S', '_', 'C', 'O', 'M', 'M', 'A'] rfl (reserved_begins rfl) rfl
theorem dH2PP_ARG_COUNT {user : String → Option Macro} : defs user "H2PP_ARG_COUNT" = some ⟨some (0, true), [.tok (.id "H2PP_PROXY"), .tok .lp, .tok (.id "_H2PP_64TH"), .tok .comma, .tok .lp, .arg 0, .tok .comma, .tok (.num "64"), .tok .comma, .tok (.num "63"), .tok .comma, .tok (.num "62"), .tok .comma, .tok (.num "61"), .tok .comma, .tok (.num "60"), .tok .comma, .tok (.num "59"), .tok .comma, .tok (.num "58"), .tok .comma, .tok (.num "57"), .tok .comma, .tok (.num "56"), .tok .comma, .tok (.num "55"), .tok .comma, .tok (.num "54"), .tok .comma, .tok (.num "53"), .tok .comma, .tok (.num "52"), .tok .comma, .tok (.num "51"), .tok .comma, .tok (.num "50"), .tok .comma, .tok (.num "49"), .tok .comma, .tok (.num "48"), .tok .comma, .tok (.num "47"), .tok .comma, .tok (.num "46"), .tok .comma, .tok (.num "45"), .tok .comma, .tok (.num "44"), .tok .comma, .tok (.num "43"), .tok .comma, .tok (.num "42"), .tok .comma, .tok (.num "41"), .tok .comma, .tok (.num "40"), .tok .comma, .tok (.num "39"), .tok .comma, .tok (.num "38"), .tok .comma, .tok (.num "37"), .tok .comma, .tok (.num "36"), .tok .comma, .tok (.num "35"), .tok .comma, .tok (.num "34"), .tok .comma, .tok (.num "33"), .tok .comma, .tok (.num "32"), .tok .comma, .tok (.num "31"), .tok .comma, .tok (.num "30"), .tok .comma, .tok (.num "29"), .tok .comma, .tok (.num "28"), .tok .comma, .tok (.num "27"), .tok .comma, .tok (.num "26"), .tok .comma, .tok (.num "25"), .tok .comma, .tok (.num "24"), .tok .comma, .tok (.num "23"), .tok .comma, .tok (.num "22"), .tok .comma, .tok (.num "21"), .tok .comma, .tok (.num "20"), .tok .comma, .tok (.num "19"), .tok .comma, .tok (.num "18"), .tok .comma, .tok (.num "17"), .tok .comma, .tok (.num "16"), .tok .comma, .tok (.num "15"), .tok .comma, .tok (.num "14"), .tok .comma, .tok (.num "13"), .tok .comma, .tok (.num "12"), .tok .comma, .tok (.num "11"), .tok .comma, .tok (.num "10"), .tok .comma, .tok (.num "9"), .tok .comma, .tok (.num "8"), .tok .comma, .tok (.num "7"), .tok .comma, .tok (.num "6"), .tok .comma, .tok (.num "5"), .tok .comma, .tok (.num "4"), .tok .comma, .tok (.num "3"), .tok .comma, .tok (.num "2"), .tok .comma, .tok (.num "1"), .tok .rp, .tok .rp]⟩ :=
  defs_at 274 rfl
theorem rH2PP_ARG_COUNT {N : List String} [Free N] : rank N "H2PP_ARG_COUNT" = 4 :=
  rank_at 26 ['H', '2', 'P', 'P', '_', 'A', 'R', 'G', '_', 'C', 'O', 'U', 'N', 'T'] rfl (reserved_begins rfl) rfl
theorem dH2PP_EQ {user : String → Option Macro} : defs user "H2PP_EQ" = some ⟨some (2, false), [.tok (.id "H2PP_IS_PROBE"), .tok .lp, .tok (.id "H2PP_CAT5"), .tok .lp, .tok (.id "_H2PP_EQ"), .tok .comma, .tok (.id "__"), .tok .comma, .arg 0, .tok .comma, .tok (.id "__"), .tok .comma, .arg 1, .tok .rp, .tok .rp]⟩ :=
  defs_at 15 rfl
theorem rH2PP_EQ {N : List String} [Free N] : rank N "H2PP_EQ" = 4 :=
  rank_at 27 ['H', '2', 'P', 'P', '_', 'E', 'Q'] rfl (reserved_begins rfl) rfl
theorem dH2PP_NOT {user : String → Option Macro} : defs user "H2PP_NOT" = some ⟨some (1, false), [.tok (.id "H2PP_IS_PROBE"), .tok .lp, .tok (.id "_H2PP_CAT2"), .tok .lp, .tok (.id "_H2PP_NOT_"), .tok .comma, .arg 0, .tok .rp, .tok .rp]⟩ :=
  defs_at 16 rfl
theorem rH2PP_NOT {N : List String} [Free N] : rank N "H2PP_NOT" = 4 :=
  rank_at 28 ['H', '2', 'P', 'P', '_', 'N', 'O', 'T'] rfl (reserved_begins rfl) rfl
theorem d_H2PP_IS_EMPTY {user : String → Option Macro} : defs user "_H2PP_IS_EMPTY" = some ⟨some (4, false), [.tok (.id "H2PP_HAS_COMMA"), .tok .lp, .tok (.id "_H2PP_CAT5"), .tok .lp, .tok (.id "_H2PP_IS_EMPTY_CASE_"), .tok .comma, .arg 0, .tok .comma, .arg 1, .tok .comma, .arg 2, .tok .comma, .arg 3, .tok .rp, .tok .rp]⟩ :=
  defs_at 43 rfl
theorem r_H2PP_IS_EMPTY {N : List String} [Free N] : rank N "_H2PP_IS_EMPTY" = 5 :=
  rank_at 29 ['_', 'H', '2', 'P', 'P', '_', 'I', 'S', '_', 'E', 'M', 'P', 'T', 'Y'] rfl (reserved_begins rfl) rfl
theorem dH2PP_IS_EMPTY {user : String → Option Macro} : defs user "H2PP_IS_EMPTY" = some ⟨some (0, true), [.tok (.id "_H2PP_IS_EMPTY"), .tok .lp, .tok (.id "H2PP_HAS_COMMA"), .tok .lp, .arg 0, .tok .rp, .tok .comma, .tok (.id "H2PP_HAS_COMMA"), .tok .lp, .tok (.id "H2PP_COMMA"), .arg 0, .tok .rp, .tok .comma, .tok (.id "H2PP_HAS_COMMA"), .tok .lp, .arg 0, .tok .lp, .tok .rp, .tok .rp, .tok .comma, .tok (.id "H2PP_HAS_COMMA"), .tok .lp, .tok (.id "H2PP_COMMA"), .arg 0, .tok .lp, .tok .rp, .tok .rp, .tok .rp]⟩ :=
  defs_at 42 rfl
theorem rH2PP_IS_EMPTY {N : List String} [Free N] : rank N "H2PP_IS_EMPTY" = 6 :=
  rank_at 30 ['H', '2', 'P', 'P', '_', 'I', 'S', '_', 'E', 'M', 'P', 'T', 'Y'] rfl (reserved_begins rfl) rfl
theorem dH2PP_REMOVE_PARENTHESES {user : String → Option Macro} : defs user "H2PP_REMOVE_PARENTHESES" = some ⟨some (0, true), [.tok (.id "_H2PP_REMOVE_PARENTHESES"), .arg 0]⟩ :=
  defs_at 37 rfl
theorem rH2PP_REMOVE_PARENTHESES {N : List String} [Free N] : rank N "H2PP_REMOVE_PARENTHESES" = 1 :=
  rank_at 31 ['H', '2', 'P', 'P', '_', 'R', 'E', 'M', 'O', 'V', 'E', '_', 'P', 'A', 'R', 'E', 'N', 'T', 'H', 'E', 'S', 'E', 'S'] rfl (reserved_begins rfl) rfl
theorem dH2PP_DEFER {user : String → Option Macro} : defs user "H2PP_DEFER" = some ⟨some (0, true), [.arg 0, .tok (.id "H2PP_EMPTY"), .tok .lp, .tok .rp]⟩ :=
  defs_at 7 rfl
theorem rH2PP_DEFER {N : List String} [Free N] : rank N "H2PP_DEFER" = 1 :=
  rank_at 32 ['H', '2', 'P', 'P', '_', 'D', 'E', 'F', 'E', 'R'] rfl (reserved_begins rfl) rfl
theorem d_H2PP_COMPL_0 {user : String → Option Macro} : defs user "_H2PP_COMPL_0" = some ⟨none, [.tok (.num "1")]⟩ :=
  defs_at 19 rfl
theorem r_H2PP_COMPL_0 {N : List String} [Free N] : rank N "_H2PP_COMPL_0" = 0 :=
  rank_at 33 ['_', 'H', '2', 'P', 'P', '_', 'C', 'O', 'M', 'P', 'L', '_', '0'] rfl (reserved_begins rfl) rfl
theorem d_H2PP_COMPL_1 {user : String → Option Macro} : defs user "_H2PP_COMPL_1" = some ⟨none, [.tok (.num "0")]⟩ :=
  defs_at 20 rfl
theorem r_H2PP_COMPL_1 {N : List String} [Free N] : rank N "_H2PP_COMPL_1" = 0 :=
  rank_at 34 ['_', 'H', '2', 'P', 'P', '_', 'C', 'O', 'M', 'P', 'L', '_', '1'] rfl (reserved_begins rfl) rfl
theorem dH2PP_COMPL {user : String → Option Macro} : defs user "H2PP_COMPL" = some ⟨some (1, false), [.tok (.id "_H2PP_CAT2"), .tok .lp, .tok (.id "_H2PP_COMPL_"), .tok .comma, .arg 0, .tok .rp]⟩ :=
  defs_at 18 rfl
theorem rH2PP_COMPL {N : List String} [Free N] : rank N "H2PP_COMPL" = 5 :=
  rank_at 35 ['H', '2', 'P', 'P', '_', 'C', 'O', 'M', 'P', 'L'] rfl (reserved_begins rfl) rfl
theorem dH2PP_BOOL {user : String → Option Macro} : defs user "H2PP_BOOL" = some ⟨some (1, false), [.tok (.id "H2PP_COMPL"), .tok .lp, .tok (.id "H2PP_NOT"), .tok .lp, .arg 0, .tok .rp, .tok .rp]⟩ :=
  defs_at 21 rfl
theorem rH2PP_BOOL {N : List String} [Free N] : rank N "H2PP_BOOL" = 6 :=
  rank_at 36 ['H', '2', 'P', 'P', '_', 'B', 'O', 'O', 'L'] rfl (reserved_begins rfl) rfl
theorem d_H2PP_AND_0 {user : String → Option Macro} : defs user "_H2PP_AND_0" = some ⟨some (1, false), [.tok (.num "0")]⟩ :=
  defs_at 23 rfl
theorem r_H2PP_AND_0 {N : List String} [Free N] : rank N "_H2PP_AND_0" = 0 :=
  rank_at 37 ['_', 'H', '2', 'P', 'P', '_', 'A', 'N', 'D', '_', '0'] rfl (reserved_begins rfl) rfl
theorem d_H2PP_AND_1 {user : String → Option Macro} : defs user "_H2PP_AND_1" = some ⟨some (1, false), [.arg 0]⟩ :=
  defs_at 24 rfl
theorem r_H2PP_AND_1 {N : List String} [Free N] : rank N "_H2PP_AND_1" = 0 :=
  rank_at 38 ['_', 'H', '2', 'P', 'P', '_', 'A', 'N', 'D', '_', '1'] rfl (reserved_begins rfl) rfl
theorem dH2PP_AND {user : String → Option Macro} : defs user "H2PP_AND" = some ⟨some (2, false), [.tok (.id "H2PP_CAT2"), .tok .lp, .tok (.id "_H2PP_AND_"), .tok .comma, .tok (.id "H2PP_BOOL"), .tok .lp, .arg 0, .tok .rp, .tok .rp, .tok .lp, .tok (.id "H2PP_BOOL"), .tok .lp, .arg 1, .tok .rp, .tok .rp]⟩ :=
  defs_at 22 rfl
theorem rH2PP_AND {N : List String} [Free N] : rank N "H2PP_AND" = 7 :=
  rank_at 39 ['H', '2', 'P', 'P', '_', 'A', 'N', 'D'] rfl (reserved_begins rfl) rfl
theorem d_H2PP_NARG_0 {user : String → Option Macro} : defs user "_H2PP_NARG_0" = some ⟨some (0, true), [.tok (.id "H2PP_ARG_COUNT"), .tok .lp, .arg 0, .tok .rp]⟩ :=
  defs_at 46 rfl
theorem r_H2PP_NARG_0 {N : List String} [Free N] : rank N "_H2PP_NARG_0" = 7 :=
  rank_at 40 ['_', 'H', '2', 'P', 'P', '_', 'N', 'A', 'R', 'G', '_', '0'] rfl (reserved_begins rfl) rfl
theorem d_H2PP_NARG_1 {user : String → Option Macro} : defs user "_H2PP_NARG_1" = some ⟨some (0, true), [.tok (.num "0")]⟩ :=
  defs_at 47 rfl
theorem r_H2PP_NARG_1 {N : List String} [Free N] : rank N "_H2PP_NARG_1" = 7 :=
  rank_at 41 ['_', 'H', '2', 'P', 'P', '_', 'N', 'A', 'R', 'G', '_', '1'] rfl (reserved_begins rfl) rfl
theorem d_H2PP_HEAD_0 {user : String → Option Macro} : defs user "_H2PP_HEAD_0" = some ⟨some (1, false), [.tok (.id "H2PP_RESCAN"), .tok .lp, .tok (.id "_H2PP_HEAD_0_R"), .arg 0, .tok .rp]⟩ :=
  defs_at 51 rfl
theorem r_H2PP_HEAD_0 {N : List String} [Free N] : rank N "_H2PP_HEAD_0" = 7 :=
  rank_at 42 ['_', 'H', '2', 'P', 'P', '_', 'H', 'E', 'A', 'D', '_', '0'] rfl (reserved_begins rfl) rfl
theorem d_H2PP_HEAD_1 {user : String → Option Macro} : defs user "_H2PP_HEAD_1" = some ⟨some (0, true), []⟩ :=
  defs_at 53 rfl
theorem r_H2PP_HEAD_1 {N : List String} [Free N] : rank N "_H2PP_HEAD_1" = 7 :=
  rank_at 43 ['_', 'H', '2', 'P', 'P', '_', 'H', 'E', 'A', 'D', '_', '1'] rfl (reserved_begins rfl) rfl
theorem d_H2PP_TAIL_0 {user : String → Option Macro} : defs user "_H2PP_TAIL_0" = some ⟨some (1, false), [.tok (.id "H2PP_RESCAN"), .tok .lp, .tok (.id "_H2PP_TAIL_0_R"), .arg 0, .tok .rp]⟩ :=
  defs_at 55 rfl
theorem r_H2PP_TAIL_0 {N : List String} [Free N] : rank N "_H2PP_TAIL_0" = 7 :=
  rank_at 44 ['_', 'H', '2', 'P', 'P', '_', 'T', 'A', 'I', 'L', '_', '0'] rfl (reserved_begins rfl) rfl
theorem d_H2PP_TAIL_1 {user : String → Option Macro} : defs user "_H2PP_TAIL_1" = some ⟨some (0, true), []⟩ :=
  defs_at 57 rfl
theorem r_H2PP_TAIL_1 {N : List String} [Free N] : rank N "_H2PP_TAIL_1" = 7 :=
  rank_at 45 ['_', 'H', '2', 'P', 'P', '_', 'T', 'A', 'I', 'L', '_', '1'] rfl (reserved_begins rfl) rfl
theorem d_H2PP_IF_ELSE_0 {user : String → Option Macro} : defs user "_H2PP_IF_ELSE_0" = some ⟨some (2, false), [.arg 1]⟩ :=
  defs_at 30 rfl
theorem r_H2PP_IF_ELSE_0 {N : List String} [Free N] : rank N "_H2PP_IF_ELSE_0" = 7 :=
  rank_at 46 ['_', 'H', '2', 'P', 'P', '_', 'I', 'F', '_', 'E', 'L', 'S', 'E', '_', '0'] rfl (reserved_begins rfl) rfl
theorem d_H2PP_IF_ELSE_1 {user : String → Option Macro} : defs user "_H2PP_IF_ELSE_1" = some ⟨some (2, false), [.arg 0]⟩ :=
  defs_at 29 rfl
theorem r_H2PP_IF_ELSE_1 {N : List String} [Free N] : rank N "_H2PP_IF_ELSE_1" = 7 :=
  rank_at 47 ['_', 'H', '2', 'P', 'P', '_', 'I', 'F', '_', 'E', 'L', 'S', 'E', '_', '1'] rfl (reserved_begins rfl) rfl
theorem dH2PP_IS_BEGIN_PARENTHESIS {user : String → Option Macro} : defs user "H2PP_IS_BEGIN_PARENTHESIS" = some ⟨some (0, true), [.tok (.id "H2PP_IS_PROBE"), .tok .lp, .tok (.id "_H2PP_IS_BEGIN_PARENTHESIS_PROBE"), .arg 0, .tok .rp]⟩ :=
  defs_at 34 rfl
theorem rH2PP_IS_BEGIN_PARENTHESIS {N : List String} [Free N] : rank N "H2PP_IS_BEGIN_PARENTHESIS" = 7 :=
  rank_at 48 ['H', '2', 'P', 'P', '_', 'I', 'S', '_', 'B', 'E', 'G', 'I', 'N', '_', 'P', 'A', 'R', 'E', 'N', 'T', 'H', 'E', 'S', 'I', 'S'] rfl (reserved_begins rfl) rfl
theorem dH2PP_IF_ELSE {user : String → Option Macro} : defs user "H2PP_IF_ELSE" = some ⟨some (3, false), [.tok (.id "H2PP_CAT2"), .tok .lp, .tok (.id "_H2PP_IF_ELSE_"), .tok .comma, .arg 0, .tok .rp, .tok .lp, .arg 1, .tok .comma, .arg 2, .tok .rp]⟩ :=
  defs_at 28 rfl
theorem rH2PP_IF_ELSE {N : List String} [Free N] : rank N "H2PP_IF_ELSE" = 8 :=
  rank_at 49 ['H', '2', 'P', 'P', '_', 'I', 'F', '_', 'E', 'L', 'S', 'E'] rfl (reserved_begins rfl) rfl
theorem dH2PP_HEAD {user : String → Option Macro} : defs user "H2PP_HEAD" = some ⟨some (0, true), [.tok (.id "H2PP_CAT2"), .tok .lp, .tok (.id "_H2PP_HEAD_"), .tok .comma, .tok (.id "H2PP_IS_EMPTY"), .tok .lp, .arg 0, .tok .rp, .tok .rp, .tok .lp, .tok .lp, .arg 0, .tok .rp, .tok .rp]⟩ :=
  defs_at 50 rfl
theorem rH2PP_HEAD {N : List String} [Free N] : rank N "H2PP_HEAD" = 8 :=
  rank_at 50 ['H', '2', 'P', 'P', '_', 'H', 'E', 'A', 'D'] rfl (reserved_begins rfl) rfl
theorem dH2PP_TAIL {user : String → Option Macro} : defs user "H2PP_TAIL" = some ⟨some (0, true), [.tok (.id "H2PP_CAT2"), .tok .lp, .tok (.id "_H2PP_TAIL_"), .tok .comma, .tok (.id "H2PP_IS_EMPTY"), .tok .lp, .arg 0, .tok .rp, .tok .rp, .tok .lp, .tok .lp, .arg 0, .tok .rp, .tok .rp]⟩ :=
  defs_at 54 rfl
theorem rH2PP_TAIL {N : List String} [Free N] : rank N "H2PP_TAIL" = 8 :=
  rank_at 51 ['H', '2', 'P', 'P', '_', 'T', 'A', 'I', 'L'] rfl (reserved_begins rfl) rfl
theorem dH2PP_NARG {user : String → Option Macro} : defs user "H2PP_NARG" = some ⟨some (0, true), [.tok (.id "H2PP_CAT"), .tok .lp, .tok (.id "_H2PP_NARG_"), .tok .comma, .tok (.id "H2PP_IS_EMPTY"), .tok .lp, .arg 0, .tok .rp, .tok .rp, .tok .lp, .arg 0, .tok .rp]⟩ :=
  defs_at 45 rfl
theorem rH2PP_NARG {N : List String} [Free N] : rank N "H2PP_NARG" = 8 :=
  rank_at 52 ['H', '2', 'P', 'P', '_', 'N', 'A', 'R', 'G'] rfl (reserved_begins rfl) rfl
theorem dH2PP_VCALL {user : String → Option Macro} : defs user "H2PP_VCALL" = some ⟨some (1, true), [.tok (.id "H2PP_RESCAN"), .tok .lp, .tok (.id "H2PP_CAT2"), .tok .lp, .arg 0, .tok .comma, .tok (.id "H2PP_NARG"), .tok .lp, .arg 1, .tok .rp, .tok .rp, .tok .lp, .arg 1, .tok .rp, .tok .rp]⟩ :=
  defs_at 49 rfl
theorem rH2PP_VCALL {N : List String} [Free N] : rank N "H2PP_VCALL" = 9 :=
  rank_at 53 ['H', '2', 'P', 'P', '_', 'V', 'C', 'A', 'L', 'L'] rfl (reserved_begins rfl) rfl
theorem dH2PP_NCALL {user : String → Option Macro} : defs user "H2PP_NCALL" = some ⟨some (2, true), [.tok (.id "H2PP_RESCAN"), .tok .lp, .tok (.id "H2PP_CAT2"), .tok .lp, .arg 0, .tok .comma, .tok (.id "H2PP_EQ"), .tok .lp, .arg 1, .tok .comma, .tok (.id "H2PP_NARG"), .tok .lp, .arg 2, .tok .rp, .tok .rp, .tok .rp, .tok .lp, .arg 2, .tok .rp, .tok .rp]⟩ :=
  defs_at 48 rfl
theorem rH2PP_NCALL {N : List String} [Free N] : rank N "H2PP_NCALL" = 9 :=
  rank_at 54 ['H', '2', 'P', 'P', '_', 'N', 'C', 'A', 'L', 'L'] rfl (reserved_begins rfl) rfl
theorem dH2PP_IS_PARENTHESIS {user : String → Option Macro} : defs user "H2PP_IS_PARENTHESIS" = some ⟨some (0, true), [.tok (.id "H2PP_IF_ELSE"), .tok .lp, .tok (.id "H2PP_IS_BEGIN_PARENTHESIS"), .tok .lp, .arg 0, .tok .rp, .tok .comma, .tok (.id "H2PP_IS_EMPTY"), .tok .lp, .tok (.id "H2PP_EMPTY"), .arg 0, .tok .rp, .tok .comma, .tok (.num "0"), .tok .rp]⟩ :=
  defs_at 36 rfl
theorem rH2PP_IS_PARENTHESIS {N : List String} [Free N] : rank N "H2PP_IS_PARENTHESIS" = 9 :=
  rank_at 55 ['H', '2', 'P', 'P', '_', 'I', 'S', '_', 'P', 'A', 'R', 'E', 'N', 'T', 'H', 'E', 'S', 'I', 'S'] rfl (reserved_begins rfl) rfl
theorem d_H2PP_REMOVE_PARENTHESES_IF_0 {user : String → Option Macro} : defs user "_H2PP_REMOVE_PARENTHESES_IF_0" = some ⟨some (0, true), [.arg 0]⟩ :=
  defs_at 41 rfl
theorem r_H2PP_REMOVE_PARENTHESES_IF_0 {N : List String} [Free N] : rank N "_H2PP_REMOVE_PARENTHESES_IF_0" = 10 :=
  rank_at 56 ['_', 'H', '2', 'P', 'P', '_', 'R', 'E', 'M', 'O', 'V', 'E', '_', 'P', 'A', 'R', 'E', 'N', 'T', 'H', 'E', 'S', 'E', 'S', '_', 'I', 'F', '_', '0'] rfl (reserved_begins rfl) rfl
theorem d_H2PP_REMOVE_PARENTHESES_IF_1 {user : String → Option Macro} : defs user "_H2PP_REMOVE_PARENTHESES_IF_1" = some ⟨some (0, true), [.tok (.id "H2PP_REMOVE_PARENTHESES"), .tok .lp, .arg 0, .tok .rp]⟩ :=
  defs_at 40 rfl
theorem r_H2PP_REMOVE_PARENTHESES_IF_1 {N : List String} [Free N] : rank N "_H2PP_REMOVE_PARENTHESES_IF_1" = 10 :=
  rank_at 57 ['_', 'H', '2', 'P', 'P', '_', 'R', 'E', 'M', 'O', 'V', 'E', '_', 'P', 'A', 'R', 'E', 'N', 'T', 'H', 'E', 'S', 'E', 'S', '_', 'I', 'F', '_', '1'] rfl (reserved_begins rfl) rfl
theorem dH2PP_REMOVE_PARENTHESES_IF {user : String → Option Macro} : defs user "H2PP_REMOVE_PARENTHESES_IF" = some ⟨some (0, true), [.tok (.id "H2PP_CAT2"), .tok .lp, .tok (.id "_H2PP_REMOVE_PARENTHESES_IF_"), .tok .comma, .tok (.id "H2PP_IS_PARENTHESIS"), .tok .lp, .arg 0, .tok .rp, .tok .rp, .tok .lp, .arg 0, .tok .rp]⟩ :=
  defs_at 39 rfl
theorem rH2PP_REMOVE_PARENTHESES_IF {N : List String} [Free N] : rank N "H2PP_REMOVE_PARENTHESES_IF" = 11 :=
  rank_at 58 ['H', '2', 'P', 'P', '_', 'R', 'E', 'M', 'O', 'V', 'E', '_', 'P', 'A', 'R', 'E', 'N', 'T', 'H', 'E', 'S', 'E', 'S', '_', 'I', 'F'] rfl (reserved_begins rfl) rfl
theorem d_H2PP_FOREACH_CALL_MACRO_0 {user : String → Option Macro} : defs user "_H2PP_FOREACH_CALL_MACRO_0" = some ⟨some (5, false), [.tok (.id "H2PP_REMOVE_PARENTHESES_IF"), .tok .lp, .arg 0, .tok .rp, .arg 1, .tok .lp, .arg 2, .tok .comma, .arg 3, .tok .comma, .arg 4, .tok .rp]⟩ :=
  defs_at 80 rfl
theorem r_H2PP_FOREACH_CALL_MACRO_0 {N : List String} [Free N] : rank N "_H2PP_FOREACH_CALL_MACRO_0" = 12 :=
  rank_at 59 ['_', 'H', '2', 'P', 'P', '_', 'F', 'O', 'R', 'E', 'A', 'C', 'H', '_', 'C', 'A', 'L', 'L', '_', 'M', 'A', 'C', 'R', 'O', '_', '0'] rfl (reserved_begins rfl) rfl
theorem d_H2PP_FOREACH_CALL_MACRO_1 {user : String → Option Macro} : defs user "_H2PP_FOREACH_CALL_MACRO_1" = some ⟨some (5, false), [.arg 1, .tok .lp, .arg 2, .tok .comma, .arg 3, .tok .comma, .arg 4, .tok .rp]⟩ :=
  defs_at 79 rfl
theorem r_H2PP_FOREACH_CALL_MACRO_1 {N : List String} [Free N] : rank N "_H2PP_FOREACH_CALL_MACRO_1" = 12 :=
  rank_at 60 ['_', 'H', '2', 'P', 'P', '_', 'F', 'O', 'R', 'E', 'A', 'C', 'H', '_', 'C', 'A', 'L', 'L', '_', 'M', 'A', 'C', 'R', 'O', '_', '1'] rfl (reserved_begins rfl) rfl
theorem d_H2PP_FOREACH_CALL_MACRO {user : String → Option Macro} : defs user "_H2PP_FOREACH_CALL_MACRO" = some ⟨some (5, false), [.tok (.id "H2PP_CAT2"), .tok .lp, .tok (.id "_H2PP_FOREACH_CALL_MACRO_"), .tok .comma, .tok (.id "H2PP_EQ"), .tok .lp, .tok (.num "0"), .tok .comma, .arg 3, .tok .rp, .tok .rp, .tok .lp, .arg 0, .tok .comma, .arg 1, .tok .comma, .arg 2, .tok .comma, .arg 3, .tok .comma, .arg 4, .tok .rp]⟩ :=
  defs_at 78 rfl
theorem r_H2PP_FOREACH_CALL_MACRO {N : List String} [Free N] : rank N "_H2PP_FOREACH_CALL_MACRO" = 13 :=
  rank_at 61 ['_', 'H', '2', 'P', 'P', '_', 'F', 'O', 'R', 'E', 'A', 'C', 'H', '_', 'C', 'A', 'L', 'L', '_', 'M', 'A', 'C', 'R', 'O'] rfl (reserved_begins rfl) rfl
theorem d_H2PP_FOREACH_0 {user : String → Option Macro} : defs user "_H2PP_FOREACH_0" = some ⟨some (4, true), [.tok (.id "_H2PP_FOREACH_CALL_MACRO"), .tok .lp, .arg 0, .tok .comma, .arg 1, .tok .comma, .arg 2, .tok .comma, .arg 3, .tok .comma, .tok (.id "H2PP_HEAD"), .tok .lp, .arg 4, .tok .rp, .tok .rp, .tok (.id "H2PP_DEFER"), .tok .lp, .tok (.id "__H2PP_FOREACH"), .tok .rp, .tok .lp, .tok .rp, .tok .lp, .arg 0, .tok .comma, .arg 1, .tok .comma, .arg 2, .tok .comma, .tok (.id "H2PP_CAT2"), .tok .lp, .tok (.id "H2PP_INC_"), .tok .comma, .arg 3, .tok .rp, .tok .comma, .tok (.id "H2PP_TAIL"), .tok .lp, .arg 4, .tok .rp, .tok .rp]⟩ :=
  defs_at 76 rfl
theorem r_H2PP_FOREACH_0 {N : List String} [Free N] : rank N "_H2PP_FOREACH_0" = 14 :=
  rank_at 62 ['_', 'H', '2', 'P', 'P', '_', 'F', 'O', 'R', 'E', 'A', 'C', 'H', '_', '0'] rfl (reserved_begins rfl) rfl
theorem d_H2PP_FOREACH_1 {user : String → Option Macro} : defs user "_H2PP_FOREACH_1" = some ⟨some (0, true), []⟩ :=
  defs_at 75 rfl
theorem r_H2PP_FOREACH_1 {N : List String} [Free N] : rank N "_H2PP_FOREACH_1" = 14 :=
  rank_at 63 ['_', 'H', '2', 'P', 'P', '_', 'F', 'O', 'R', 'E', 'A', 'C', 'H', '_', '1'] rfl (reserved_begins rfl) rfl
theorem d_H2PP_FOREACH {user : String → Option Macro} : defs user "_H2PP_FOREACH" = some ⟨some (4, true), [.tok (.id "H2PP_CAT2"), .tok .lp, .tok (.id "_H2PP_FOREACH_"), .tok .comma, .tok (.id "H2PP_IS_EMPTY"), .tok .lp, .arg 4, .tok .rp, .tok .rp, .tok .lp, .arg 0, .tok .comma, .arg 1, .tok .comma, .arg 2, .tok .comma, .arg 3, .tok .comma, .arg 4, .tok .rp]⟩ :=
  defs_at 74 rfl
theorem r_H2PP_FOREACH {N : List String} [Free N] : rank N "_H2PP_FOREACH" = 15 :=
  rank_at 64 ['_', 'H', '2', 'P', 'P', '_', 'F', 'O', 'R', 'E', 'A', 'C', 'H'] rfl (reserved_begins rfl) rfl
theorem d_H2PP_REPEAT_CALL_MACRO_0 {user : String → Option Macro} : defs user "_H2PP_REPEAT_CALL_MACRO_0" = some ⟨some (4, false), [.tok (.id "H2PP_REMOVE_PARENTHESES_IF"), .tok .lp, .arg 0, .tok .rp, .arg 1, .tok .lp, .arg 2, .tok .comma, .arg 3, .tok .rp]⟩ :=
  defs_at 72 rfl
theorem r_H2PP_REPEAT_CALL_MACRO_0 {N : List String} [Free N] : rank N "_H2PP_REPEAT_CALL_MACRO_0" = 12 :=
  rank_at 65 ['_', 'H', '2', 'P', 'P', '_', 'R', 'E', 'P', 'E', 'A', 'T', '_', 'C', 'A', 'L', 'L', '_', 'M', 'A', 'C', 'R', 'O', '_', '0'] rfl (reserved_begins rfl) rfl
theorem d_H2PP_REPEAT_CALL_MACRO_1 {user : String → Option Macro} : defs user "_H2PP_REPEAT_CALL_MACRO_1" = some ⟨some (4, false), [.arg 1, .tok .lp, .arg 2, .tok .comma, .arg 3, .tok .rp]⟩ :=
  defs_at 71 rfl
theorem r_H2PP_REPEAT_CALL_MACRO_1 {N : List String} [Free N] : rank N "_H2PP_REPEAT_CALL_MACRO_1" = 12 :=
  rank_at 66 ['_', 'H', '2', 'P', 'P', '_', 'R', 'E', 'P', 'E', 'A', 'T', '_', 'C', 'A', 'L', 'L', '_', 'M', 'A', 'C', 'R', 'O', '_', '1'] rfl (reserved_begins rfl) rfl
theorem d_H2PP_REPEAT_CALL_MACRO {user : String → Option Macro} : defs user "_H2PP_REPEAT_CALL_MACRO" = some ⟨some (4, false), [.tok (.id "H2PP_CAT2"), .tok .lp, .tok (.id "_H2PP_REPEAT_CALL_MACRO_"), .tok .comma, .tok (.id "H2PP_EQ"), .tok .lp, .tok (.num "0"), .tok .comma, .arg 3, .tok .rp, .tok .rp, .tok .lp, .arg 0, .tok .comma, .arg 1, .tok .comma, .arg 2, .tok .comma, .arg 3, .tok .rp]⟩ :=
  defs_at 70 rfl
theorem r_H2PP_REPEAT_CALL_MACRO {N : List String} [Free N] : rank N "_H2PP_REPEAT_CALL_MACRO" = 13 :=
  rank_at 67 ['_', 'H', '2', 'P', 'P', '_', 'R', 'E', 'P', 'E', 'A', 'T', '_', 'C', 'A', 'L', 'L', '_', 'M', 'A', 'C', 'R', 'O'] rfl (reserved_begins rfl) rfl
theorem d_H2PP_REPEAT_0 {user : String → Option Macro} : defs user "_H2PP_REPEAT_0" = some ⟨some (0, true), []⟩ :=
  defs_at 67 rfl
theorem r_H2PP_REPEAT_0 {N : List String} [Free N] : rank N "_H2PP_REPEAT_0" = 14 :=
  rank_at 68 ['_', 'H', '2', 'P', 'P', '_', 'R', 'E', 'P', 'E', 'A', 'T', '_', '0'] rfl (reserved_begins rfl) rfl
theorem d_H2PP_REPEAT_1 {user : String → Option Macro} : defs user "_H2PP_REPEAT_1" = some ⟨some (4, false), [.tok (.id "H2PP_DEFER"), .tok .lp, .tok (.id "__H2PP_REPEAT"), .tok .rp, .tok .lp, .tok .rp, .tok .lp, .arg 0, .tok .comma, .arg 1, .tok .comma, .arg 2, .tok .comma, .tok (.id "H2PP_CAT2"), .tok .lp, .tok (.id "H2PP_DEC_"), .tok .comma, .arg 3, .tok .rp, .tok .rp, .tok (.id "_H2PP_REPEAT_CALL_MACRO"), .tok .lp, .arg 0, .tok .comma, .arg 1, .tok .comma, .arg 2, .tok .comma, .tok (.id "H2PP_CAT2"), .tok .lp, .tok (.id "H2PP_DEC_"), .tok .comma, .arg 3, .tok .rp, .tok .rp]⟩ :=
  defs_at 68 rfl
theorem r_H2PP_REPEAT_1 {N : List String} [Free N] : rank N "_H2PP_REPEAT_1" = 14 :=
  rank_at 69 ['_', 'H', '2', 'P', 'P', '_', 'R', 'E', 'P', 'E', 'A', 'T', '_', '1'] rfl (reserved_begins rfl) rfl
theorem d_H2PP_REPEAT {user : String → Option Macro} : defs user "_H2PP_REPEAT" = some ⟨some (4, false), [.tok (.id "H2PP_CAT2"), .tok .lp, .tok (.id "_H2PP_REPEAT_"), .tok .comma, .tok (.id "H2PP_BOOL"), .tok .lp, .arg 3, .tok .rp, .tok .rp, .tok .lp, .arg 0, .tok .comma, .arg 1, .tok .comma, .arg 2, .tok .comma, .arg 3, .tok .rp]⟩ :=
  defs_at 66 rfl
theorem r_H2PP_REPEAT {N : List String} [Free N] : rank N "_H2PP_REPEAT" = 15 :=
  rank_at 70 ['_', 'H', '2', 'P', 'P', '_', 'R', 'E', 'P', 'E', 'A', 'T'] rfl (reserved_begins rfl) rfl
theorem d_H2PP_FULLMESH_CALL_MACRO_0 {user : String → Option Macro} : defs user "_H2PP_FULLMESH_CALL_MACRO_0" = some ⟨some (7, false), [.tok (.id "H2PP_REMOVE_PARENTHESES_IF"), .tok .lp, .arg 0, .tok .rp, .arg 1, .tok .lp, .arg 2, .tok .comma, .arg 3, .tok .comma, .arg 4, .tok .comma, .arg 5, .tok .comma, .arg 6, .tok .rp]⟩ :=
  defs_at 99 rfl
theorem r_H2PP_FULLMESH_CALL_MACRO_0 {N : List String} [Free N] : rank N "_H2PP_FULLMESH_CALL_MACRO_0" = 12 :=
  rank_at 71 ['_', 'H', '2', 'P', 'P', '_', 'F', 'U', 'L', 'L', 'M', 'E', 'S', 'H', '_', 'C', 'A', 'L', 'L', '_', 'M', 'A', 'C', 'R', 'O', '_', '0'] rfl (reserved_begins rfl) rfl
theorem d_H2PP_FULLMESH_CALL_MACRO_1 {user : String → Option Macro} : defs user "_H2PP_FULLMESH_CALL_MACRO_1" = some ⟨some (7, false), [.arg 1, .tok .lp, .arg 2, .tok .comma, .arg 3, .tok .comma, .arg 4, .tok .comma, .arg 5, .tok .comma, .arg 6, .tok .rp]⟩ :=
  defs_at 98 rfl
theorem r_H2PP_FULLMESH_CALL_MACRO_1 {N : List String} [Free N] : rank N "_H2PP_FULLMESH_CALL_MACRO_1" = 12 :=
  rank_at 72 ['_', 'H', '2', 'P', 'P', '_', 'F', 'U', 'L', 'L', 'M', 'E', 'S', 'H', '_', 'C', 'A', 'L', 'L', '_', 'M', 'A', 'C', 'R', 'O', '_', '1'] rfl (reserved_begins rfl) rfl
theorem d_H2PP_FULLMESH_CALL_MACRO {user : String → Option Macro} : defs user "_H2PP_FULLMESH_CALL_MACRO" = some ⟨some (7, false), [.tok (.id "H2PP_CAT2"), .tok .lp, .tok (.id "_H2PP_FULLMESH_CALL_MACRO_"), .tok .comma, .tok (.id "H2PP_AND"), .tok .lp, .tok (.id "H2PP_EQ"), .tok .lp, .tok (.num "0"), .tok .comma, .arg 3, .tok .rp, .tok .comma, .tok (.id "H2PP_EQ"), .tok .lp, .tok (.num "0"), .tok .comma, .arg 4, .tok .rp, .tok .rp, .tok .rp, .tok .lp, .arg 0, .tok .comma, .arg 1, .tok .comma, .arg 2, .tok .comma, .arg 3, .tok .comma, .arg 4, .tok .comma, .arg 5, .tok .comma, .arg 6, .tok .rp]⟩ :=
  defs_at 97 rfl
theorem r_H2PP_FULLMESH_CALL_MACRO {N : List String} [Free N] : rank N "_H2PP_FULLMESH_CALL_MACRO" = 13 :=
  rank_at 73 ['_', 'H', '2', 'P', 'P', '_', 'F', 'U', 'L', 'L', 'M', 'E', 'S', 'H', '_', 'C', 'A', 'L', 'L', '_', 'M', 'A', 'C', 'R', 'O'] rfl (reserved_begins rfl) rfl
theorem d_H2PP_FOREACHy_0 {user : String → Option Macro} : defs user "_H2PP_FOREACHy_0" = some ⟨some (6, true), [.tok (.id "_H2PP_FULLMESH_CALL_MACRO"), .tok .lp, .arg 0, .tok .comma, .arg 1, .tok .comma, .arg 2, .tok .comma, .arg 3, .tok .comma, .arg 4, .tok .comma, .arg 5, .tok .comma, .tok (.id "H2PP_HEAD"), .tok .lp, .arg 6, .tok .rp, .tok .rp, .tok (.id "H2PP_DEFER"), .tok .lp, .tok (.id "__H2PP_FOREACHy"), .tok .rp, .tok .lp, .tok .rp, .tok .lp, .arg 0, .tok .comma, .arg 1, .tok .comma, .arg 2, .tok .comma, .arg 3, .tok .comma, .tok (.id "H2PP_CAT2"), .tok .lp, .tok (.id "H2PP_INC_"), .tok .comma, .arg 4, .tok .rp, .tok .comma, .arg 5, .tok .comma, .tok (.id "H2PP_TAIL"), .tok .lp, .arg 6, .tok .rp, .tok .rp]⟩ :=
  defs_at 95 rfl
theorem r_H2PP_FOREACHy_0 {N : List String} [Free N] : rank N "_H2PP_FOREACHy_0" = 14 :=
  rank_at 74 ['_', 'H', '2', 'P', 'P', '_', 'F', 'O', 'R', 'E', 'A', 'C', 'H', 'y', '_', '0'] rfl (reserved_begins rfl) rfl
theorem d_H2PP_FOREACHy_1 {user : String → Option Macro} : defs user "_H2PP_FOREACHy_1" = some ⟨some (0, true), []⟩ :=
  defs_at 94 rfl
theorem r_H2PP_FOREACHy_1 {N : List String} [Free N] : rank N "_H2PP_FOREACHy_1" = 14 :=
  rank_at 75 ['_', 'H', '2', 'P', 'P', '_', 'F', 'O', 'R', 'E', 'A', 'C', 'H', 'y', '_', '1'] rfl (reserved_begins rfl) rfl
theorem d_H2PP_FOREACHy {user : String → Option Macro} : defs user "_H2PP_FOREACHy" = some ⟨some (6, true), [.tok (.id "H2PP_CAT2"), .tok .lp, .tok (.id "_H2PP_FOREACHy_"), .tok .comma, .tok (.id "H2PP_IS_EMPTY"), .tok .lp, .arg 6, .tok .rp, .tok .rp, .tok .lp, .arg 0, .tok .comma, .arg 1, .tok .comma, .arg 2, .tok .comma, .arg 3, .tok .comma, .arg 4, .tok .comma, .arg 5, .tok .comma, .arg 6, .tok .rp]⟩ :=
  defs_at 93 rfl
theorem r_H2PP_FOREACHy {N : List String} [Free N] : rank N "_H2PP_FOREACHy" = 15 :=
  rank_at 76 ['_', 'H', '2', 'P', 'P', '_', 'F', 'O', 'R', 'E', 'A', 'C', 'H', 'y'] rfl (reserved_begins rfl) rfl
theorem d_H2PP_FOREACHx_0 {user : String → Option Macro} : defs user "_H2PP_FOREACHx_0" = some ⟨some (5, true), [.tok (.id "_H2PP_FOREACHy"), .tok .lp, .arg 0, .tok .comma, .arg 1, .tok .comma, .arg 2, .tok .comma, .arg 3, .tok .comma, .tok (.num "0"), .tok .comma, .tok (.id "H2PP_HEAD"), .tok .lp, .arg 5, .tok .rp, .tok .comma, .tok (.id "H2PP_REMOVE_PARENTHESES"), .tok .lp, .arg 4, .tok .rp, .tok .rp, .tok (.id "H2PP_DEFER"), .tok .lp, .tok (.id "__H2PP_FOREACHx"), .tok .rp, .tok .lp, .tok .rp, .tok .lp, .arg 0, .tok .comma, .arg 1, .tok .comma, .arg 2, .tok .comma, .tok (.id "H2PP_CAT2"), .tok .lp, .tok (.id "H2PP_INC_"), .tok .comma, .arg 3, .tok .rp, .tok .comma, .arg 4, .tok .comma, .tok (.id "H2PP_TAIL"), .tok .lp, .arg 5, .tok .rp, .tok .rp]⟩ :=
  defs_at 91 rfl
theorem r_H2PP_FOREACHx_0 {N : List String} [Free N] : rank N "_H2PP_FOREACHx_0" = 16 :=
  rank_at 77 ['_', 'H', '2', 'P', 'P', '_', 'F', 'O', 'R', 'E', 'A', 'C', 'H', 'x', '_', '0'] rfl (reserved_begins rfl) rfl
theorem d_H2PP_FOREACHx_1 {user : String → Option Macro} : defs user "_H2PP_FOREACHx_1" = some ⟨some (0, true), []⟩ :=
  defs_at 90 rfl
theorem r_H2PP_FOREACHx_1 {N : List String} [Free N] : rank N "_H2PP_FOREACHx_1" = 16 :=
  rank_at 78 ['_', 'H', '2', 'P', 'P', '_', 'F', 'O', 'R', 'E', 'A', 'C', 'H', 'x', '_', '1'] rfl (reserved_begins rfl) rfl
theorem d_H2PP_FOREACHx {user : String → Option Macro} : defs user "_H2PP_FOREACHx" = some ⟨some (5, true), [.tok (.id "H2PP_CAT2"), .tok .lp, .tok (.id "_H2PP_FOREACHx_"), .tok .comma, .tok (.id "H2PP_IS_EMPTY"), .tok .lp, .arg 5, .tok .rp, .tok .rp, .tok .lp, .arg 0, .tok .comma, .arg 1, .tok .comma, .arg 2, .tok .comma, .arg 3, .tok .comma, .arg 4, .tok .comma, .arg 5, .tok .rp]⟩ :=
  defs_at 89 rfl
theorem r_H2PP_FOREACHx {N : List String} [Free N] : rank N "_H2PP_FOREACHx" = 17 :=
  rank_at 79 ['_', 'H', '2', 'P', 'P', '_', 'F', 'O', 'R', 'E', 'A', 'C', 'H', 'x'] rfl (reserved_begins rfl) rfl
theorem d_H2PP_LAST_0_0 {user : String → Option Macro} : defs user "_H2PP_LAST_0_0" = some ⟨some (0, true), [.tok (.id "H2PP_DEFER"), .tok .lp, .tok (.id "__H2PP_LAST"), .tok .rp, .tok .lp, .tok .rp, .tok .lp, .tok (.id "H2PP_TAIL"), .tok .lp, .arg 0, .tok .rp, .tok .rp]⟩ :=
  defs_at 63 rfl
theorem r_H2PP_LAST_0_0 {N : List String} [Free N] : rank N "_H2PP_LAST_0_0" = 14 :=
  rank_at 80 ['_', 'H', '2', 'P', 'P', '_', 'L', 'A', 'S', 'T', '_', '0', '_', '0'] rfl (reserved_begins rfl) rfl
theorem d_H2PP_LAST_0_1 {user : String → Option Macro} : defs user "_H2PP_LAST_0_1" = some ⟨some (0, true), [.arg 0]⟩ :=
  defs_at 62 rfl
theorem r_H2PP_LAST_0_1 {N : List String} [Free N] : rank N "_H2PP_LAST_0_1" = 14 :=
  rank_at 81 ['_', 'H', '2', 'P', 'P', '_', 'L', 'A', 'S', 'T', '_', '0', '_', '1'] rfl (reserved_begins rfl) rfl
theorem d_H2PP_LAST_0 {user : String → Option Macro} : defs user "_H2PP_LAST_0" = some ⟨some (0, true), [.tok (.id "H2PP_CAT2"), .tok .lp, .tok (.id "_H2PP_LAST_0_"), .tok .comma, .tok (.id "H2PP_EQ"), .tok .lp, .tok (.num "1"), .tok .comma, .tok (.id "H2PP_NARG"), .tok .lp, .arg 0, .tok .rp, .tok .rp, .tok .rp, .tok .lp, .arg 0, .tok .rp]⟩ :=
  defs_at 61 rfl
theorem r_H2PP_LAST_0 {N : List String} [Free N] : rank N "_H2PP_LAST_0" = 15 :=
  rank_at 82 ['_', 'H', '2', 'P', 'P', '_', 'L', 'A', 'S', 'T', '_', '0'] rfl (reserved_begins rfl) rfl
theorem d_H2PP_LAST_1 {user : String → Option Macro} : defs user "_H2PP_LAST_1" = some ⟨some (0, true), []⟩ :=
  defs_at 60 rfl
theorem r_H2PP_LAST_1 {N : List String} [Free N] : rank N "_H2PP_LAST_1" = 15 :=
  rank_at 83 ['_', 'H', '2', 'P', 'P', '_', 'L', 'A', 'S', 'T', '_', '1'] rfl (reserved_begins rfl) rfl
theorem d_H2PP_LAST {user : String → Option Macro} : defs user "_H2PP_LAST" = some ⟨some (0, true), [.tok (.id "H2PP_CAT2"), .tok .lp, .tok (.id "_H2PP_LAST_"), .tok .comma, .tok (.id "H2PP_IS_EMPTY"), .tok .lp, .arg 0, .tok .rp, .tok .rp, .tok .lp, .arg 0, .tok .rp]⟩ :=
  defs_at 59 rfl
theorem r_H2PP_LAST {N : List String} [Free N] : rank N "_H2PP_LAST" = 16 :=
  rank_at 84 ['_', 'H', '2', 'P', 'P', '_', 'L', 'A', 'S', 'T'] rfl (reserved_begins rfl) rfl
theorem d_H2PP_EVAL_1 {user : String → Option Macro} : defs user "_H2PP_EVAL_1" = some ⟨some (0, true), [.arg 0]⟩ :=
  defs_at 271 rfl
theorem r_H2PP_EVAL_1 {N : List String} [Free N] : rank N "_H2PP_EVAL_1" = 20 :=
  rank_at 85 ['_', 'H', '2', 'P', 'P', '_', 'E', 'V', 'A', 'L', '_', '1'] rfl (reserved_begins rfl) rfl
theorem d_H2PP_EVAL_2 {user : String → Option Macro} : defs user "_H2PP_EVAL_2" = some ⟨some (0, true), [.tok (.id "_H2PP_EVAL_1"), .tok .lp, .tok (.id "_H2PP_EVAL_1"), .tok .lp, .arg 0, .tok .rp, .tok .rp]⟩ :=
  defs_at 270 rfl
theorem r_H2PP_EVAL_2 {N : List String} [Free N] : rank N "_H2PP_EVAL_2" = 21 :=
  rank_at 86 ['_', 'H', '2', 'P', 'P', '_', 'E', 'V', 'A', 'L', '_', '2'] rfl (reserved_begins rfl) rfl
theorem d_H2PP_EVAL_4 {user : String → Option Macro} : defs user "_H2PP_EVAL_4" = some ⟨some (0, true), [.tok (.id "_H2PP_EVAL_2"), .tok .lp, .tok (.id "_H2PP_EVAL_2"), .tok .lp, .arg 0, .tok .rp, .tok .rp]⟩ :=
  defs_at 269 rfl
theorem r_H2PP_EVAL_4 {N : List String} [Free N] : rank N "_H2PP_EVAL_4" = 22 :=
  rank_at 87 ['_', 'H', '2', 'P', 'P', '_', 'E', 'V', 'A', 'L', '_', '4'] rfl (reserved_begins rfl) rfl
theorem d_H2PP_EVAL_8 {user : String → Option Macro} : defs user "_H2PP_EVAL_8" = some ⟨some (0, true), [.tok (.id "_H2PP_EVAL_4"), .tok .lp, .tok (.id "_H2PP_EVAL_4"), .tok .lp, .arg 0, .tok .rp, .tok .rp]⟩ :=
  defs_at 268 rfl
theorem r_H2PP_EVAL_8 {N : List String} [Free N] : rank N "_H2PP_EVAL_8" = 23 :=
  rank_at 88 ['_', 'H', '2', 'P', 'P', '_', 'E', 'V', 'A', 'L', '_', '8'] rfl (reserved_begins rfl) rfl
theorem d_H2PP_EVAL_16 {user : String → Option Macro} : defs user "_H2PP_EVAL_16" = some ⟨some (0, true), [.tok (.id "_H2PP_EVAL_8"), .tok .lp, .tok (.id "_H2PP_EVAL_8"), .tok .lp, .arg 0, .tok .rp, .tok .rp]⟩ :=
  defs_at 267 rfl
theorem r_H2PP_EVAL_16 {N : List String} [Free N] : rank N "_H2PP_EVAL_16" = 24 :=
  rank_at 89 ['_', 'H', '2', 'P', 'P', '_', 'E', 'V', 'A', 'L', '_', '1', '6'] rfl (reserved_begins rfl) rfl
theorem d_H2PP_EVAL_32 {user : String → Option Macro} : defs user "_H2PP_EVAL_32" = some ⟨some (0, true), [.tok (.id "_H2PP_EVAL_16"), .tok .lp, .tok (.id "_H2PP_EVAL_16"), .tok .lp, .arg 0, .tok .rp, .tok .rp]⟩ :=
  defs_at 266 rfl
theorem r_H2PP_EVAL_32 {N : List String} [Free N] : rank N "_H2PP_EVAL_32" = 25 :=
  rank_at 90 ['_', 'H', '2', 'P', 'P', '_', 'E', 'V', 'A', 'L', '_', '3', '2'] rfl (reserved_begins rfl) rfl
theorem d_H2PP_EVAL_64 {user : String → Option Macro} : defs user "_H2PP_EVAL_64" = some ⟨some (0, true), [.tok (.id "_H2PP_EVAL_32"), .tok .lp, .tok (.id "_H2PP_EVAL_32"), .tok .lp, .arg 0, .tok .rp, .tok .rp]⟩ :=
  defs_at 265 rfl
theorem r_H2PP_EVAL_64 {N : List String} [Free N] : rank N "_H2PP_EVAL_64" = 26 :=
  rank_at 91 ['_', 'H', '2', 'P', 'P', '_', 'E', 'V', 'A', 'L', '_', '6', '4'] rfl (reserved_begins rfl) rfl
theorem d_H2PP_EVAL_128 {user : String → Option Macro} : defs user "_H2PP_EVAL_128" = some ⟨some (0, true), [.tok (.id "_H2PP_EVAL_64"), .tok .lp, .tok (.id "_H2PP_EVAL_64"), .tok .lp, .arg 0, .tok .rp, .tok .rp]⟩ :=
  defs_at 264 rfl
theorem r_H2PP_EVAL_128 {N : List String} [Free N] : rank N "_H2PP_EVAL_128" = 27 :=
  rank_at 92 ['_', 'H', '2', 'P', 'P', '_', 'E', 'V', 'A', 'L', '_', '1', '2', '8'] rfl (reserved_begins rfl) rfl
theorem dH2PP_EVAL {user : String → Option Macro} : defs user "H2PP_EVAL" = some ⟨some (0, true), [.tok (.id "_H2PP_EVAL_128"), .tok .lp, .arg 0, .tok .rp]⟩ :=
  defs_at 14 rfl
theorem rH2PP_EVAL {N : List String} [Free N] : rank N "H2PP_EVAL" = 28 :=
  rank_at 93 ['H', '2', 'P', 'P', '_', 'E', 'V', 'A', 'L'] rfl (reserved_begins rfl) rfl
theorem dH2PP_FOREACH {user : String → Option Macro} : defs user "H2PP_FOREACH" = some ⟨some (3, true), [.tok (.id "H2PP_EVAL"), .tok .lp, .tok (.id "_H2PP_FOREACH"), .tok .lp, .arg 0, .tok .comma, .arg 1, .tok .comma, .arg 2, .tok .comma, .tok (.num "0"), .tok .comma, .arg 3, .tok .rp, .tok .rp]⟩ :=
  defs_at 73 rfl
theorem rH2PP_FOREACH {N : List String} [Free N] : rank N "H2PP_FOREACH" = 30 :=
  rank_at 94 ['H', '2', 'P', 'P', '_', 'F', 'O', 'R', 'E', 'A', 'C', 'H'] rfl (reserved_begins rfl) rfl
theorem dH2PP_REPEAT {user : String → Option Macro} : defs user "H2PP_REPEAT" = some ⟨some (4, false), [.tok (.id "H2PP_EVAL"), .tok .lp, .tok (.id "_H2PP_REPEAT"), .tok .lp, .arg 0, .tok .comma, .arg 1, .tok .comma, .arg 2, .tok .comma, .arg 3, .tok .rp, .tok .rp]⟩ :=
  defs_at 65 rfl
theorem rH2PP_REPEAT {N : List String} [Free N] : rank N "H2PP_REPEAT" = 30 :=
  rank_at 95 ['H', '2', 'P', 'P', '_', 'R', 'E', 'P', 'E', 'A', 'T'] rfl (reserved_begins rfl) rfl
theorem dH2PP_LAST {user : String → Option Macro} : defs user "H2PP_LAST" = some ⟨some (0, true), [.tok (.id "H2PP_EVAL"), .tok .lp, .tok (.id "_H2PP_LAST"), .tok .lp, .arg 0, .tok .rp, .tok .rp]⟩ :=
  defs_at 58 rfl
theorem rH2PP_LAST {N : List String} [Free N] : rank N "H2PP_LAST" = 30 :=
  rank_at 96 ['H', '2', 'P', 'P', '_', 'L', 'A', 'S', 'T'] rfl (reserved_begins rfl) rfl
theorem dH2PP_FULLMESH2 {user : String → Option Macro} : defs user "H2PP_FULLMESH2" = some ⟨some (5, false), [.tok (.id "H2PP_EVAL"), .tok .lp, .tok (.id "_H2PP_FOREACHx"), .tok .lp, .arg 0, .tok .comma, .arg 1, .tok .comma, .arg 2, .tok .comma, .tok (.num "0"), .tok .comma, .arg 4, .tok .comma, .tok (.id "H2PP_REMOVE_PARENTHESES"), .tok .lp, .arg 3, .tok .rp, .tok .rp, .tok .rp]⟩ :=
  defs_at 88 rfl
theorem rH2PP_FULLMESH2 {N : List String} [Free N] : rank N "H2PP_FULLMESH2" = 30 :=
  rank_at 97 ['H', '2', 'P', 'P', '_', 'F', 'U', 'L', 'L', 'M', 'E', 'S', 'H', '2'] rfl (reserved_begins rfl) rfl
theorem d_H2PP_FULLMESH2_0_R {user : String → Option Macro} : defs user "_H2PP_FULLMESH2_0_R" = some ⟨some (1, false), [.tok (.id "H2PP_RESCAN"), .tok .lp, .tok (.id "H2PP_FULLMESH2"), .arg 0, .tok .rp]⟩ :=
  defs_at 87 rfl
theorem r_H2PP_FULLMESH2_0_R {N : List String} [Free N] : rank N "_H2PP_FULLMESH2_0_R" = 31 :=
  rank_at 98 ['_', 'H', '2', 'P', 'P', '_', 'F', 'U', 'L', 'L', 'M', 'E', 'S', 'H', '2', '_', '0', '_', 'R'] rfl (reserved_begins rfl) rfl
theorem d_H2PP_FULLMESH2_0 {user : String → Option Macro} : defs user "_H2PP_FULLMESH2_0" = some ⟨some (0, true), [.tok (.id "_H2PP_FULLMESH2_0_R"), .tok .lp, .tok .lp, .arg 0, .tok .rp, .tok .rp]⟩ :=
  defs_at 86 rfl
theorem r_H2PP_FULLMESH2_0 {N : List String} [Free N] : rank N "_H2PP_FULLMESH2_0" = 32 :=
  rank_at 99 ['_', 'H', '2', 'P', 'P', '_', 'F', 'U', 'L', 'L', 'M', 'E', 'S', 'H', '2', '_', '0'] rfl (reserved_begins rfl) rfl
theorem d_H2PP_FULLMESH2_1 {user : String → Option Macro} : defs user "_H2PP_FULLMESH2_1" = some ⟨some (4, true), [.tok (.id "H2PP_FULLMESH2"), .tok .lp, .arg 0, .tok .comma, .arg 1, .tok .comma, .arg 2, .tok .comma, .arg 3, .tok .comma, .arg 3, .tok .rp]⟩ :=
  defs_at 85 rfl
theorem r_H2PP_FULLMESH2_1 {N : List String} [Free N] : rank N "_H2PP_FULLMESH2_1" = 32 :=
  rank_at 100 ['_', 'H', '2', 'P', 'P', '_', 'F', 'U', 'L', 'L', 'M', 'E', 'S', 'H', '2', '_', '1'] rfl (reserved_begins rfl) rfl
theorem dH2PP_FULLMESH1 {user : String → Option Macro} : defs user "H2PP_FULLMESH1" = some ⟨some (4, true), [.tok (.id "H2PP_CAT2"), .tok .lp, .tok (.id "_H2PP_FULLMESH2_"), .tok .comma, .tok (.id "H2PP_IS_EMPTY"), .tok .lp, .arg 4, .tok .rp, .tok .rp, .tok .lp, .arg 0, .tok .comma, .arg 1, .tok .comma, .arg 2, .tok .comma, .arg 3, .tok .comma, .arg 4, .tok .rp]⟩ :=
  defs_at 84 rfl
theorem rH2PP_FULLMESH1 {N : List String} [Free N] : rank N "H2PP_FULLMESH1" = 33 :=
  rank_at 101 ['H', '2', 'P', 'P', '_', 'F', 'U', 'L', 'L', 'M', 'E', 'S', 'H', '1'] rfl (reserved_begins rfl) rfl
theorem d_H2PP_FULLMESH1_0 {user : String → Option Macro} : defs user "_H2PP_FULLMESH1_0" = some ⟨some (1, false), [.tok (.id "H2PP_RESCAN"), .tok .lp, .tok (.id "H2PP_FULLMESH1"), .arg 0, .tok .rp]⟩ :=
  defs_at 83 rfl
theorem r_H2PP_FULLMESH1_0 {N : List String} [Free N] : rank N "_H2PP_FULLMESH1_0" = 34 :=
  rank_at 102 ['_', 'H', '2', 'P', 'P', '_', 'F', 'U', 'L', 'L', 'M', 'E', 'S', 'H', '1', '_', '0'] rfl (reserved_begins rfl) rfl
theorem d_H2PP_FULLMESH1_1 {user : String → Option Macro} : defs user "_H2PP_FULLMESH1_1" = some ⟨some (0, true), []⟩ :=
  defs_at 82 rfl
theorem r_H2PP_FULLMESH1_1 {N : List String} [Free N] : rank N "_H2PP_FULLMESH1_1" = 34 :=
  rank_at 103 ['_', 'H', '2', 'P', 'P', '_', 'F', 'U', 'L', 'L', 'M', 'E', 'S', 'H', '1', '_', '1'] rfl (reserved_begins rfl) rfl
theorem dH2PP_FULLMESH {user : String → Option Macro} : defs user "H2PP_FULLMESH" = some ⟨some (3, true), [.tok (.id "H2PP_RESCAN"), .tok .lp, .tok (.id "H2PP_CAT2"), .tok .lp, .tok (.id "_H2PP_FULLMESH1_"), .tok .comma, .tok (.id "H2PP_IS_EMPTY"), .tok .lp, .arg 3, .tok .rp, .tok .rp, .tok .lp, .tok .lp, .arg 0, .tok .comma, .arg 1, .tok .comma, .arg 2, .tok .comma, .arg 3, .tok .rp, .tok .rp, .tok .rp]⟩ :=
  defs_at 81 rfl
theorem rH2PP_FULLMESH {N : List String} [Free N] : rank N "H2PP_FULLMESH" = 35 :=
  rank_at 104 ['H', '2', 'P', 'P', '_', 'F', 'U', 'L', 'L', 'M', 'E', 'S', 'H'] rfl (reserved_begins rfl) rfl
theorem d_H2ForeachMacro {user : String → Option Macro} : defs user "_H2ForeachMacro" = some ⟨some (3, false), [.tok (.id "H2PP_REMOVE_PARENTHESES"), .tok .lp, .arg 0, .tok .rp, .tok .lp, .arg 2, .tok .rp]⟩ :=
  defs_at 101 rfl
theorem r_H2ForeachMacro {N : List String} [Free N] : rank N "_H2ForeachMacro" = 0 :=
  rank_at 105 ['_', 'H', '2', 'F', 'o', 'r', 'e', 'a', 'c', 'h', 'M', 'a', 'c', 'r', 'o'] rfl (by decide +kernel) rfl
theorem d_H2FullmeshMacro {user : String → Option Macro} : defs user "_H2FullmeshMacro" = some ⟨some (5, false), [.tok (.id "H2PP_REMOVE_PARENTHESES"), .tok .lp, .arg 0, .tok .rp, .tok .lp, .arg 3, .tok .comma, .arg 4, .tok .rp]⟩ :=
  defs_at 103 rfl
theorem r_H2FullmeshMacro {N : List String} [Free N] : rank N "_H2FullmeshMacro" = 0 :=
  rank_at 106 ['_', 'H', '2', 'F', 'u', 'l', 'l', 'm', 'e', 's', 'h', 'M', 'a', 'c', 'r', 'o'] rfl (by decide +kernel) rfl
theorem dH2Foreach {user : String → Option Macro} : defs user "H2Foreach" = some ⟨some (1, true), [.tok (.id "H2PP_FOREACH"), .tok .lp, .tok .comma, .tok (.id "_H2ForeachMacro"), .tok .comma, .tok .lp, .arg 0, .tok .rp, .tok .comma, .tok (.id "H2PP_REMOVE_PARENTHESES_IF"), .tok .lp, .arg 1, .tok .rp, .tok .rp]⟩ :=
  defs_at 100 rfl
theorem rH2Foreach {N : List String} [Free N] : rank N "H2Foreach" = 40 :=
  rank_at 107 ['H', '2', 'F', 'o', 'r', 'e', 'a', 'c', 'h'] rfl (by decide +kernel) rfl
theorem dH2Fullmesh {user : String → Option Macro} : defs user "H2Fullmesh" = some ⟨some (1, true), [.tok (.id "H2PP_FULLMESH"), .tok .lp, .tok .comma, .tok (.id "_H2FullmeshMacro"), .tok .comma, .tok .lp, .arg 0, .tok .rp, .tok .comma, .arg 1, .tok .rp]⟩ :=
  defs_at 102 rfl
theorem rH2Fullmesh {N : List String} [Free N] : rank N "H2Fullmesh" = 40 :=
  rank_at 108 ['H', '2', 'F', 'u', 'l', 'l', 'm', 'e', 's', 'h'] rfl (by decide +kernel) rfl

open Lean.Parser.Tactic in
/-- Closes goals about which macros are not being replaced. -/
macro "ok" : tactic => `(tactic| ((try simp only [marks_append, marks_toks, marks, List.append_nil, List.nil_append, ok_append, ok_cons, ok_nil,
  and_true, true_and, List.cons_append, List.append_assoc, rH2PP_COMMA, rH2PP_EMPTY, r_H2PP_64TH, r__H2PP_FOREACH, r__H2PP_REPEAT, r__H2PP_LAST, r__H2PP_FOREACHx, r__H2PP_FOREACHy, r_H2PP_REMOVE_PARENTHESES, r_H2PP_HEAD_0_R, r_H2PP_TAIL_0_R, r_H2PP_IS_BEGIN_PARENTHESIS_PROBE, rH2PP_PROBE, r_H2PP_IS_EMPTY_CASE_0001, r_H2PP_NOT_0, r_H2PP_TH1, rH2PP_RESCAN, r_H2PP_CAT2, r_H2PP_CAT5, rH2PP_CAT, rH2PP_CAT2, rH2PP_CAT5, r_H2PP_PROXY, rH2PP_PROXY, rH2PP_IS_PROBE, rH2PP_HAS_COMMA, rH2PP_ARG_COUNT, rH2PP_EQ, rH2PP_NOT, r_H2PP_IS_EMPTY, rH2PP_IS_EMPTY, rH2PP_REMOVE_PARENTHESES, rH2PP_DEFER, r_H2PP_COMPL_0, r_H2PP_COMPL_1, rH2PP_COMPL, rH2PP_BOOL, r_H2PP_AND_0, r_H2PP_AND_1, rH2PP_AND, r_H2PP_NARG_0, r_H2PP_NARG_1, r_H2PP_HEAD_0, r_H2PP_HEAD_1, r_H2PP_TAIL_0, r_H2PP_TAIL_1, r_H2PP_IF_ELSE_0, r_H2PP_IF_ELSE_1, rH2PP_IS_BEGIN_PARENTHESIS, rH2PP_IF_ELSE, rH2PP_HEAD, rH2PP_TAIL, rH2PP_NARG, rH2PP_VCALL, rH2PP_NCALL, rH2PP_IS_PARENTHESIS, r_H2PP_REMOVE_PARENTHESES_IF_0, r_H2PP_REMOVE_PARENTHESES_IF_1, rH2PP_REMOVE_PARENTHESES_IF, r_H2PP_FOREACH_CALL_MACRO_0, r_H2PP_FOREACH_CALL_MACRO_1, r_H2PP_FOREACH_CALL_MACRO, r_H2PP_FOREACH_0, r_H2PP_FOREACH_1, r_H2PP_FOREACH, r_H2PP_REPEAT_CALL_MACRO_0, r_H2PP_REPEAT_CALL_MACRO_1, r_H2PP_REPEAT_CALL_MACRO, r_H2PP_REPEAT_0, r_H2PP_REPEAT_1, r_H2PP_REPEAT, r_H2PP_FULLMESH_CALL_MACRO_0, r_H2PP_FULLMESH_CALL_MACRO_1, r_H2PP_FULLMESH_CALL_MACRO, r_H2PP_FOREACHy_0, r_H2PP_FOREACHy_1, r_H2PP_FOREACHy, r_H2PP_FOREACHx_0, r_H2PP_FOREACHx_1, r_H2PP_FOREACHx, r_H2PP_LAST_0_0, r_H2PP_LAST_0_1, r_H2PP_LAST_0, r_H2PP_LAST_1, r_H2PP_LAST, r_H2PP_EVAL_1, r_H2PP_EVAL_2, r_H2PP_EVAL_4, r_H2PP_EVAL_8, r_H2PP_EVAL_16, r_H2PP_EVAL_32, r_H2PP_EVAL_64, r_H2PP_EVAL_128, rH2PP_EVAL, rH2PP_FOREACH, rH2PP_REPEAT, rH2PP_LAST, rH2PP_FULLMESH2, r_H2PP_FULLMESH2_0_R, r_H2PP_FULLMESH2_0, r_H2PP_FULLMESH2_1, rH2PP_FULLMESH1, r_H2PP_FULLMESH1_0, r_H2PP_FULLMESH1_1, rH2PP_FULLMESH, r_H2ForeachMacro, r_H2FullmeshMacro, rH2Foreach, rH2Fullmesh]) ; all_goals ((try and_intros) <;> first | exact Ok.mono (by assumption) (by decide) | decide | assumption)))

end H2.Macro
