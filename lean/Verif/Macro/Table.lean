import Verif.Macro.Model
/-
The macros of `/repo/source/utils/h2_macro.hpp` and `/repo/source/utils/h2_macro.in.hpp`, one entry for every `#define`, without
`H2PP_STR`, `H2PP_UNIQUE` and `H2PP_DEBUG` (which use `#` or predefined macros) and without the variants for MSVC;
and the macros `H2Foreach` and `H2Fullmesh` of `/repo/source/utils/h2_misc.hpp` that are made of them.
-/
namespace H2.Macro

/-- `/repo/source/utils/h2_macro.in.hpp:2-176`. -/
def generated : List (String × Macro) := [
  ("_H2PP_EQ__0__0", ⟨none, [.tok (.id "H2PP_PROBE"), .tok .lp, .tok .rp]⟩),
  ("_H2PP_EQ__1__1", ⟨none, [.tok (.id "H2PP_PROBE"), .tok .lp, .tok .rp]⟩),
  ("_H2PP_EQ__2__2", ⟨none, [.tok (.id "H2PP_PROBE"), .tok .lp, .tok .rp]⟩),
  ("_H2PP_EQ__3__3", ⟨none, [.tok (.id "H2PP_PROBE"), .tok .lp, .tok .rp]⟩),
  ("_H2PP_EQ__4__4", ⟨none, [.tok (.id "H2PP_PROBE"), .tok .lp, .tok .rp]⟩),
  ("_H2PP_EQ__5__5", ⟨none, [.tok (.id "H2PP_PROBE"), .tok .lp, .tok .rp]⟩),
  ("_H2PP_EQ__6__6", ⟨none, [.tok (.id "H2PP_PROBE"), .tok .lp, .tok .rp]⟩),
  ("_H2PP_EQ__7__7", ⟨none, [.tok (.id "H2PP_PROBE"), .tok .lp, .tok .rp]⟩),
  ("_H2PP_EQ__8__8", ⟨none, [.tok (.id "H2PP_PROBE"), .tok .lp, .tok .rp]⟩),
  ("_H2PP_EQ__9__9", ⟨none, [.tok (.id "H2PP_PROBE"), .tok .lp, .tok .rp]⟩),
  ("_H2PP_EQ__10__10", ⟨none, [.tok (.id "H2PP_PROBE"), .tok .lp, .tok .rp]⟩),
  ("_H2PP_EQ__11__11", ⟨none, [.tok (.id "H2PP_PROBE"), .tok .lp, .tok .rp]⟩),
  ("_H2PP_EQ__12__12", ⟨none, [.tok (.id "H2PP_PROBE"), .tok .lp, .tok .rp]⟩),
  ("_H2PP_EQ__13__13", ⟨none, [.tok (.id "H2PP_PROBE"), .tok .lp, .tok .rp]⟩),
  ("_H2PP_EQ__14__14", ⟨none, [.tok (.id "H2PP_PROBE"), .tok .lp, .tok .rp]⟩),
  ("_H2PP_EQ__15__15", ⟨none, [.tok (.id "H2PP_PROBE"), .tok .lp, .tok .rp]⟩),
  ("_H2PP_EQ__16__16", ⟨none, [.tok (.id "H2PP_PROBE"), .tok .lp, .tok .rp]⟩),
  ("_H2PP_EQ__17__17", ⟨none, [.tok (.id "H2PP_PROBE"), .tok .lp, .tok .rp]⟩),
  ("_H2PP_EQ__18__18", ⟨none, [.tok (.id "H2PP_PROBE"), .tok .lp, .tok .rp]⟩),
  ("_H2PP_EQ__19__19", ⟨none, [.tok (.id "H2PP_PROBE"), .tok .lp, .tok .rp]⟩),
  ("_H2PP_EQ__20__20", ⟨none, [.tok (.id "H2PP_PROBE"), .tok .lp, .tok .rp]⟩),
  ("_H2PP_EQ__21__21", ⟨none, [.tok (.id "H2PP_PROBE"), .tok .lp, .tok .rp]⟩),
  ("_H2PP_EQ__22__22", ⟨none, [.tok (.id "H2PP_PROBE"), .tok .lp, .tok .rp]⟩),
  ("_H2PP_EQ__23__23", ⟨none, [.tok (.id "H2PP_PROBE"), .tok .lp, .tok .rp]⟩),
  ("_H2PP_EQ__24__24", ⟨none, [.tok (.id "H2PP_PROBE"), .tok .lp, .tok .rp]⟩),
  ("_H2PP_EQ__25__25", ⟨none, [.tok (.id "H2PP_PROBE"), .tok .lp, .tok .rp]⟩),
  ("_H2PP_EQ__26__26", ⟨none, [.tok (.id "H2PP_PROBE"), .tok .lp, .tok .rp]⟩),
  ("_H2PP_EQ__27__27", ⟨none, [.tok (.id "H2PP_PROBE"), .tok .lp, .tok .rp]⟩),
  ("_H2PP_EQ__28__28", ⟨none, [.tok (.id "H2PP_PROBE"), .tok .lp, .tok .rp]⟩),
  ("_H2PP_EQ__29__29", ⟨none, [.tok (.id "H2PP_PROBE"), .tok .lp, .tok .rp]⟩),
  ("_H2PP_EQ__30__30", ⟨none, [.tok (.id "H2PP_PROBE"), .tok .lp, .tok .rp]⟩),
  ("_H2PP_EQ__31__31", ⟨none, [.tok (.id "H2PP_PROBE"), .tok .lp, .tok .rp]⟩),
  ("_H2PP_TH0", ⟨some (1, true), [.arg 0]⟩),
  ("_H2PP_TH1", ⟨some (2, true), [.arg 1]⟩),
  ("_H2PP_TH2", ⟨some (3, true), [.arg 2]⟩),
  ("_H2PP_TH3", ⟨some (4, true), [.arg 3]⟩),
  ("_H2PP_TH4", ⟨some (5, true), [.arg 4]⟩),
  ("_H2PP_TH5", ⟨some (6, true), [.arg 5]⟩),
  ("_H2PP_TH6", ⟨some (7, true), [.arg 6]⟩),
  ("_H2PP_TH7", ⟨some (8, true), [.arg 7]⟩),
  ("_H2PP_TH8", ⟨some (9, true), [.arg 8]⟩),
  ("_H2PP_TH9", ⟨some (10, true), [.arg 9]⟩),
  ("_H2PP_TH10", ⟨some (11, true), [.arg 10]⟩),
  ("_H2PP_TH11", ⟨some (12, true), [.arg 11]⟩),
  ("_H2PP_TH12", ⟨some (13, true), [.arg 12]⟩),
  ("_H2PP_TH13", ⟨some (14, true), [.arg 13]⟩),
  ("_H2PP_TH14", ⟨some (15, true), [.arg 14]⟩),
  ("_H2PP_TH15", ⟨some (16, true), [.arg 15]⟩),
  ("_H2PP_TH16", ⟨some (17, true), [.arg 16]⟩),
  ("_H2PP_TH17", ⟨some (18, true), [.arg 17]⟩),
  ("_H2PP_TH18", ⟨some (19, true), [.arg 18]⟩),
  ("_H2PP_TH19", ⟨some (20, true), [.arg 19]⟩),
  ("_H2PP_TH20", ⟨some (21, true), [.arg 20]⟩),
  ("_H2PP_TH21", ⟨some (22, true), [.arg 21]⟩),
  ("_H2PP_TH22", ⟨some (23, true), [.arg 22]⟩),
  ("_H2PP_TH23", ⟨some (24, true), [.arg 23]⟩),
  ("_H2PP_TH24", ⟨some (25, true), [.arg 24]⟩),
  ("_H2PP_TH25", ⟨some (26, true), [.arg 25]⟩),
  ("_H2PP_TH26", ⟨some (27, true), [.arg 26]⟩),
  ("_H2PP_TH27", ⟨some (28, true), [.arg 27]⟩),
  ("_H2PP_TH28", ⟨some (29, true), [.arg 28]⟩),
  ("_H2PP_TH29", ⟨some (30, true), [.arg 29]⟩),
  ("_H2PP_TH30", ⟨some (31, true), [.arg 30]⟩),
  ("_H2PP_TH31", ⟨some (32, true), [.arg 31]⟩),
  ("H2PP_TH0", ⟨some (0, true), [.tok (.id "H2PP_PROXY2"), .tok .lp, .tok (.id "_H2PP_TH"), .tok .comma, .tok (.num "0"), .tok .comma, .tok .lp, .arg
    0, .tok .comma, .tok .rp, .tok .rp]⟩),
  ("H2PP_TH1", ⟨some (0, true), [.tok (.id "H2PP_PROXY2"), .tok .lp, .tok (.id "_H2PP_TH"), .tok .comma, .tok (.num "1"), .tok .comma, .tok .lp, .arg
    0, .tok .comma, .tok .comma, .tok .rp, .tok .rp]⟩),
  ("H2PP_TH2", ⟨some (0, true), [.tok (.id "H2PP_PROXY2"), .tok .lp, .tok (.id "_H2PP_TH"), .tok .comma, .tok (.num "2"), .tok .comma, .tok .lp, .arg
    0, .tok .comma, .tok .comma, .tok .comma, .tok .rp, .tok .rp]⟩),
  ("H2PP_TH3", ⟨some (0, true), [.tok (.id "H2PP_PROXY2"), .tok .lp, .tok (.id "_H2PP_TH"), .tok .comma, .tok (.num "3"), .tok .comma, .tok .lp, .arg
    0, .tok .comma, .tok .comma, .tok .comma, .tok .comma, .tok .rp, .tok .rp]⟩),
  ("H2PP_TH4", ⟨some (0, true), [.tok (.id "H2PP_PROXY2"), .tok .lp, .tok (.id "_H2PP_TH"), .tok .comma, .tok (.num "4"), .tok .comma, .tok .lp, .arg
    0, .tok .comma, .tok .comma, .tok .comma, .tok .comma, .tok .comma, .tok .rp, .tok .rp]⟩),
  ("H2PP_TH5", ⟨some (0, true), [.tok (.id "H2PP_PROXY2"), .tok .lp, .tok (.id "_H2PP_TH"), .tok .comma, .tok (.num "5"), .tok .comma, .tok .lp, .arg
    0, .tok .comma, .tok .comma, .tok .comma, .tok .comma, .tok .comma, .tok .comma, .tok .rp, .tok .rp]⟩),
  ("H2PP_TH6", ⟨some (0, true), [.tok (.id "H2PP_PROXY2"), .tok .lp, .tok (.id "_H2PP_TH"), .tok .comma, .tok (.num "6"), .tok .comma, .tok .lp, .arg
    0, .tok .comma, .tok .comma, .tok .comma, .tok .comma, .tok .comma, .tok .comma, .tok .comma, .tok .rp, .tok .rp]⟩),
  ("H2PP_TH7", ⟨some (0, true), [.tok (.id "H2PP_PROXY2"), .tok .lp, .tok (.id "_H2PP_TH"), .tok .comma, .tok (.num "7"), .tok .comma, .tok .lp, .arg
    0, .tok .comma, .tok .comma, .tok .comma, .tok .comma, .tok .comma, .tok .comma, .tok .comma, .tok .comma, .tok .rp, .tok .rp]⟩),
  ("H2PP_TH8", ⟨some (0, true), [.tok (.id "H2PP_PROXY2"), .tok .lp, .tok (.id "_H2PP_TH"), .tok .comma, .tok (.num "8"), .tok .comma, .tok .lp, .arg
    0, .tok .comma, .tok .comma, .tok .comma, .tok .comma, .tok .comma, .tok .comma, .tok .comma, .tok .comma, .tok .comma, .tok .rp, .tok .rp]⟩),
  ("H2PP_TH9", ⟨some (0, true), [.tok (.id "H2PP_PROXY2"), .tok .lp, .tok (.id "_H2PP_TH"), .tok .comma, .tok (.num "9"), .tok .comma, .tok .lp, .arg
    0, .tok .comma, .tok .comma, .tok .comma, .tok .comma, .tok .comma, .tok .comma, .tok .comma, .tok .comma, .tok .comma, .tok .comma, .tok .rp,
    .tok .rp]⟩),
  ("H2PP_TH10", ⟨some (0, true), [.tok (.id "H2PP_PROXY2"), .tok .lp, .tok (.id "_H2PP_TH"), .tok .comma, .tok (.num "10"), .tok .comma, .tok .lp,
    .arg 0, .tok .comma, .tok .comma, .tok .comma, .tok .comma, .tok .comma, .tok .comma, .tok .comma, .tok .comma, .tok .comma, .tok .comma, .tok
    .comma, .tok .rp, .tok .rp]⟩),
  ("H2PP_TH11", ⟨some (0, true), [.tok (.id "H2PP_PROXY2"), .tok .lp, .tok (.id "_H2PP_TH"), .tok .comma, .tok (.num "11"), .tok .comma, .tok .lp,
    .arg 0, .tok .comma, .tok .comma, .tok .comma, .tok .comma, .tok .comma, .tok .comma, .tok .comma, .tok .comma, .tok .comma, .tok .comma, .tok
    .comma, .tok .comma, .tok .rp, .tok .rp]⟩),
  ("H2PP_TH12", ⟨some (0, true), [.tok (.id "H2PP_PROXY2"), .tok .lp, .tok (.id "_H2PP_TH"), .tok .comma, .tok (.num "12"), .tok .comma, .tok .lp,
    .arg 0, .tok .comma, .tok .comma, .tok .comma, .tok .comma, .tok .comma, .tok .comma, .tok .comma, .tok .comma, .tok .comma, .tok .comma, .tok
    .comma, .tok .comma, .tok .comma, .tok .rp, .tok .rp]⟩),
  ("H2PP_TH13", ⟨some (0, true), [.tok (.id "H2PP_PROXY2"), .tok .lp, .tok (.id "_H2PP_TH"), .tok .comma, .tok (.num "13"), .tok .comma, .tok .lp,
    .arg 0, .tok .comma, .tok .comma, .tok .comma, .tok .comma, .tok .comma, .tok .comma, .tok .comma, .tok .comma, .tok .comma, .tok .comma, .tok
    .comma, .tok .comma, .tok .comma, .tok .comma, .tok .rp, .tok .rp]⟩),
  ("H2PP_TH14", ⟨some (0, true), [.tok (.id "H2PP_PROXY2"), .tok .lp, .tok (.id "_H2PP_TH"), .tok .comma, .tok (.num "14"), .tok .comma, .tok .lp,
    .arg 0, .tok .comma, .tok .comma, .tok .comma, .tok .comma, .tok .comma, .tok .comma, .tok .comma, .tok .comma, .tok .comma, .tok .comma, .tok
    .comma, .tok .comma, .tok .comma, .tok .comma, .tok .comma, .tok .rp, .tok .rp]⟩),
  ("H2PP_TH15", ⟨some (0, true), [.tok (.id "H2PP_PROXY2"), .tok .lp, .tok (.id "_H2PP_TH"), .tok .comma, .tok (.num "15"), .tok .comma, .tok .lp,
    .arg 0, .tok .comma, .tok .comma, .tok .comma, .tok .comma, .tok .comma, .tok .comma, .tok .comma, .tok .comma, .tok .comma, .tok .comma, .tok
    .comma, .tok .comma, .tok .comma, .tok .comma, .tok .comma, .tok .comma, .tok .rp, .tok .rp]⟩),
  ("H2PP_TH16", ⟨some (0, true), [.tok (.id "H2PP_PROXY2"), .tok .lp, .tok (.id "_H2PP_TH"), .tok .comma, .tok (.num "16"), .tok .comma, .tok .lp,
    .arg 0, .tok .comma, .tok .comma, .tok .comma, .tok .comma, .tok .comma, .tok .comma, .tok .comma, .tok .comma, .tok .comma, .tok .comma, .tok
    .comma, .tok .comma, .tok .comma, .tok .comma, .tok .comma, .tok .comma, .tok .comma, .tok .rp, .tok .rp]⟩),
  ("H2PP_TH17", ⟨some (0, true), [.tok (.id "H2PP_PROXY2"), .tok .lp, .tok (.id "_H2PP_TH"), .tok .comma, .tok (.num "17"), .tok .comma, .tok .lp,
    .arg 0, .tok .comma, .tok .comma, .tok .comma, .tok .comma, .tok .comma, .tok .comma, .tok .comma, .tok .comma, .tok .comma, .tok .comma, .tok
    .comma, .tok .comma, .tok .comma, .tok .comma, .tok .comma, .tok .comma, .tok .comma, .tok .comma, .tok .rp, .tok .rp]⟩),
  ("H2PP_TH18", ⟨some (0, true), [.tok (.id "H2PP_PROXY2"), .tok .lp, .tok (.id "_H2PP_TH"), .tok .comma, .tok (.num "18"), .tok .comma, .tok .lp,
    .arg 0, .tok .comma, .tok .comma, .tok .comma, .tok .comma, .tok .comma, .tok .comma, .tok .comma, .tok .comma, .tok .comma, .tok .comma, .tok
    .comma, .tok .comma, .tok .comma, .tok .comma, .tok .comma, .tok .comma, .tok .comma, .tok .comma, .tok .comma, .tok .rp, .tok .rp]⟩),
  ("H2PP_TH19", ⟨some (0, true), [.tok (.id "H2PP_PROXY2"), .tok .lp, .tok (.id "_H2PP_TH"), .tok .comma, .tok (.num "19"), .tok .comma, .tok .lp,
    .arg 0, .tok .comma, .tok .comma, .tok .comma, .tok .comma, .tok .comma, .tok .comma, .tok .comma, .tok .comma, .tok .comma, .tok .comma, .tok
    .comma, .tok .comma, .tok .comma, .tok .comma, .tok .comma, .tok .comma, .tok .comma, .tok .comma, .tok .comma, .tok .comma, .tok .rp, .tok
    .rp]⟩),
  ("H2PP_TH20", ⟨some (0, true), [.tok (.id "H2PP_PROXY2"), .tok .lp, .tok (.id "_H2PP_TH"), .tok .comma, .tok (.num "20"), .tok .comma, .tok .lp,
    .arg 0, .tok .comma, .tok .comma, .tok .comma, .tok .comma, .tok .comma, .tok .comma, .tok .comma, .tok .comma, .tok .comma, .tok .comma, .tok
    .comma, .tok .comma, .tok .comma, .tok .comma, .tok .comma, .tok .comma, .tok .comma, .tok .comma, .tok .comma, .tok .comma, .tok .comma, .tok
    .rp, .tok .rp]⟩),
  ("H2PP_TH21", ⟨some (0, true), [.tok (.id "H2PP_PROXY2"), .tok .lp, .tok (.id "_H2PP_TH"), .tok .comma, .tok (.num "21"), .tok .comma, .tok .lp,
    .arg 0, .tok .comma, .tok .comma, .tok .comma, .tok .comma, .tok .comma, .tok .comma, .tok .comma, .tok .comma, .tok .comma, .tok .comma, .tok
    .comma, .tok .comma, .tok .comma, .tok .comma, .tok .comma, .tok .comma, .tok .comma, .tok .comma, .tok .comma, .tok .comma, .tok .comma, .tok
    .comma, .tok .rp, .tok .rp]⟩),
  ("H2PP_TH22", ⟨some (0, true), [.tok (.id "H2PP_PROXY2"), .tok .lp, .tok (.id "_H2PP_TH"), .tok .comma, .tok (.num "22"), .tok .comma, .tok .lp,
    .arg 0, .tok .comma, .tok .comma, .tok .comma, .tok .comma, .tok .comma, .tok .comma, .tok .comma, .tok .comma, .tok .comma, .tok .comma, .tok
    .comma, .tok .comma, .tok .comma, .tok .comma, .tok .comma, .tok .comma, .tok .comma, .tok .comma, .tok .comma, .tok .comma, .tok .comma, .tok
    .comma, .tok .comma, .tok .rp, .tok .rp]⟩),
  ("H2PP_TH23", ⟨some (0, true), [.tok (.id "H2PP_PROXY2"), .tok .lp, .tok (.id "_H2PP_TH"), .tok .comma, .tok (.num "23"), .tok .comma, .tok .lp,
    .arg 0, .tok .comma, .tok .comma, .tok .comma, .tok .comma, .tok .comma, .tok .comma, .tok .comma, .tok .comma, .tok .comma, .tok .comma, .tok
    .comma, .tok .comma, .tok .comma, .tok .comma, .tok .comma, .tok .comma, .tok .comma, .tok .comma, .tok .comma, .tok .comma, .tok .comma, .tok
    .comma, .tok .comma, .tok .comma, .tok .rp, .tok .rp]⟩),
  ("H2PP_TH24", ⟨some (0, true), [.tok (.id "H2PP_PROXY2"), .tok .lp, .tok (.id "_H2PP_TH"), .tok .comma, .tok (.num "24"), .tok .comma, .tok .lp,
    .arg 0, .tok .comma, .tok .comma, .tok .comma, .tok .comma, .tok .comma, .tok .comma, .tok .comma, .tok .comma, .tok .comma, .tok .comma, .tok
    .comma, .tok .comma, .tok .comma, .tok .comma, .tok .comma, .tok .comma, .tok .comma, .tok .comma, .tok .comma, .tok .comma, .tok .comma, .tok
    .comma, .tok .comma, .tok .comma, .tok .comma, .tok .rp, .tok .rp]⟩),
  ("H2PP_TH25", ⟨some (0, true), [.tok (.id "H2PP_PROXY2"), .tok .lp, .tok (.id "_H2PP_TH"), .tok .comma, .tok (.num "25"), .tok .comma, .tok .lp,
    .arg 0, .tok .comma, .tok .comma, .tok .comma, .tok .comma, .tok .comma, .tok .comma, .tok .comma, .tok .comma, .tok .comma, .tok .comma, .tok
    .comma, .tok .comma, .tok .comma, .tok .comma, .tok .comma, .tok .comma, .tok .comma, .tok .comma, .tok .comma, .tok .comma, .tok .comma, .tok
    .comma, .tok .comma, .tok .comma, .tok .comma, .tok .comma, .tok .rp, .tok .rp]⟩),
  ("H2PP_TH26", ⟨some (0, true), [.tok (.id "H2PP_PROXY2"), .tok .lp, .tok (.id "_H2PP_TH"), .tok .comma, .tok (.num "26"), .tok .comma, .tok .lp,
    .arg 0, .tok .comma, .tok .comma, .tok .comma, .tok .comma, .tok .comma, .tok .comma, .tok .comma, .tok .comma, .tok .comma, .tok .comma, .tok
    .comma, .tok .comma, .tok .comma, .tok .comma, .tok .comma, .tok .comma, .tok .comma, .tok .comma, .tok .comma, .tok .comma, .tok .comma, .tok
    .comma, .tok .comma, .tok .comma, .tok .comma, .tok .comma, .tok .comma, .tok .rp, .tok .rp]⟩),
  ("H2PP_TH27", ⟨some (0, true), [.tok (.id "H2PP_PROXY2"), .tok .lp, .tok (.id "_H2PP_TH"), .tok .comma, .tok (.num "27"), .tok .comma, .tok .lp,
    .arg 0, .tok .comma, .tok .comma, .tok .comma, .tok .comma, .tok .comma, .tok .comma, .tok .comma, .tok .comma, .tok .comma, .tok .comma, .tok
    .comma, .tok .comma, .tok .comma, .tok .comma, .tok .comma, .tok .comma, .tok .comma, .tok .comma, .tok .comma, .tok .comma, .tok .comma, .tok
    .comma, .tok .comma, .tok .comma, .tok .comma, .tok .comma, .tok .comma, .tok .comma, .tok .rp, .tok .rp]⟩),
  ("H2PP_TH28", ⟨some (0, true), [.tok (.id "H2PP_PROXY2"), .tok .lp, .tok (.id "_H2PP_TH"), .tok .comma, .tok (.num "28"), .tok .comma, .tok .lp,
    .arg 0, .tok .comma, .tok .comma, .tok .comma, .tok .comma, .tok .comma, .tok .comma, .tok .comma, .tok .comma, .tok .comma, .tok .comma, .tok
    .comma, .tok .comma, .tok .comma, .tok .comma, .tok .comma, .tok .comma, .tok .comma, .tok .comma, .tok .comma, .tok .comma, .tok .comma, .tok
    .comma, .tok .comma, .tok .comma, .tok .comma, .tok .comma, .tok .comma, .tok .comma, .tok .comma, .tok .rp, .tok .rp]⟩),
  ("H2PP_TH29", ⟨some (0, true), [.tok (.id "H2PP_PROXY2"), .tok .lp, .tok (.id "_H2PP_TH"), .tok .comma, .tok (.num "29"), .tok .comma, .tok .lp,
    .arg 0, .tok .comma, .tok .comma, .tok .comma, .tok .comma, .tok .comma, .tok .comma, .tok .comma, .tok .comma, .tok .comma, .tok .comma, .tok
    .comma, .tok .comma, .tok .comma, .tok .comma, .tok .comma, .tok .comma, .tok .comma, .tok .comma, .tok .comma, .tok .comma, .tok .comma, .tok
    .comma, .tok .comma, .tok .comma, .tok .comma, .tok .comma, .tok .comma, .tok .comma, .tok .comma, .tok .comma, .tok .rp, .tok .rp]⟩),
  ("H2PP_TH30", ⟨some (0, true), [.tok (.id "H2PP_PROXY2"), .tok .lp, .tok (.id "_H2PP_TH"), .tok .comma, .tok (.num "30"), .tok .comma, .tok .lp,
    .arg 0, .tok .comma, .tok .comma, .tok .comma, .tok .comma, .tok .comma, .tok .comma, .tok .comma, .tok .comma, .tok .comma, .tok .comma, .tok
    .comma, .tok .comma, .tok .comma, .tok .comma, .tok .comma, .tok .comma, .tok .comma, .tok .comma, .tok .comma, .tok .comma, .tok .comma, .tok
    .comma, .tok .comma, .tok .comma, .tok .comma, .tok .comma, .tok .comma, .tok .comma, .tok .comma, .tok .comma, .tok .comma, .tok .rp, .tok
    .rp]⟩),
  ("H2PP_TH31", ⟨some (0, true), [.tok (.id "H2PP_PROXY2"), .tok .lp, .tok (.id "_H2PP_TH"), .tok .comma, .tok (.num "31"), .tok .comma, .tok .lp,
    .arg 0, .tok .comma, .tok .comma, .tok .comma, .tok .comma, .tok .comma, .tok .comma, .tok .comma, .tok .comma, .tok .comma, .tok .comma, .tok
    .comma, .tok .comma, .tok .comma, .tok .comma, .tok .comma, .tok .comma, .tok .comma, .tok .comma, .tok .comma, .tok .comma, .tok .comma, .tok
    .comma, .tok .comma, .tok .comma, .tok .comma, .tok .comma, .tok .comma, .tok .comma, .tok .comma, .tok .comma, .tok .comma, .tok .comma, .tok
    .rp, .tok .rp]⟩),
  ("H2PP_INC_0", ⟨none, [.tok (.num "1")]⟩),
  ("H2PP_INC_1", ⟨none, [.tok (.num "2")]⟩),
  ("H2PP_INC_2", ⟨none, [.tok (.num "3")]⟩),
  ("H2PP_INC_3", ⟨none, [.tok (.num "4")]⟩),
  ("H2PP_INC_4", ⟨none, [.tok (.num "5")]⟩),
  ("H2PP_INC_5", ⟨none, [.tok (.num "6")]⟩),
  ("H2PP_INC_6", ⟨none, [.tok (.num "7")]⟩),
  ("H2PP_INC_7", ⟨none, [.tok (.num "8")]⟩),
  ("H2PP_INC_8", ⟨none, [.tok (.num "9")]⟩),
  ("H2PP_INC_9", ⟨none, [.tok (.num "10")]⟩),
  ("H2PP_INC_10", ⟨none, [.tok (.num "11")]⟩),
  ("H2PP_INC_11", ⟨none, [.tok (.num "12")]⟩),
  ("H2PP_INC_12", ⟨none, [.tok (.num "13")]⟩),
  ("H2PP_INC_13", ⟨none, [.tok (.num "14")]⟩),
  ("H2PP_INC_14", ⟨none, [.tok (.num "15")]⟩),
  ("H2PP_INC_15", ⟨none, [.tok (.num "16")]⟩),
  ("H2PP_INC_16", ⟨none, [.tok (.num "17")]⟩),
  ("H2PP_INC_17", ⟨none, [.tok (.num "18")]⟩),
  ("H2PP_INC_18", ⟨none, [.tok (.num "19")]⟩),
  ("H2PP_INC_19", ⟨none, [.tok (.num "20")]⟩),
  ("H2PP_INC_20", ⟨none, [.tok (.num "21")]⟩),
  ("H2PP_INC_21", ⟨none, [.tok (.num "22")]⟩),
  ("H2PP_INC_22", ⟨none, [.tok (.num "23")]⟩),
  ("H2PP_INC_23", ⟨none, [.tok (.num "24")]⟩),
  ("H2PP_INC_24", ⟨none, [.tok (.num "25")]⟩),
  ("H2PP_INC_25", ⟨none, [.tok (.num "26")]⟩),
  ("H2PP_INC_26", ⟨none, [.tok (.num "27")]⟩),
  ("H2PP_INC_27", ⟨none, [.tok (.num "28")]⟩),
  ("H2PP_INC_28", ⟨none, [.tok (.num "29")]⟩),
  ("H2PP_INC_29", ⟨none, [.tok (.num "30")]⟩),
  ("H2PP_INC_30", ⟨none, [.tok (.num "31")]⟩),
  ("H2PP_INC_31", ⟨none, [.tok (.num "32")]⟩),
  ("H2PP_DEC_1", ⟨none, [.tok (.num "0")]⟩),
  ("H2PP_DEC_2", ⟨none, [.tok (.num "1")]⟩),
  ("H2PP_DEC_3", ⟨none, [.tok (.num "2")]⟩),
  ("H2PP_DEC_4", ⟨none, [.tok (.num "3")]⟩),
  ("H2PP_DEC_5", ⟨none, [.tok (.num "4")]⟩),
  ("H2PP_DEC_6", ⟨none, [.tok (.num "5")]⟩),
  ("H2PP_DEC_7", ⟨none, [.tok (.num "6")]⟩),
  ("H2PP_DEC_8", ⟨none, [.tok (.num "7")]⟩),
  ("H2PP_DEC_9", ⟨none, [.tok (.num "8")]⟩),
  ("H2PP_DEC_10", ⟨none, [.tok (.num "9")]⟩),
  ("H2PP_DEC_11", ⟨none, [.tok (.num "10")]⟩),
  ("H2PP_DEC_12", ⟨none, [.tok (.num "11")]⟩),
  ("H2PP_DEC_13", ⟨none, [.tok (.num "12")]⟩),
  ("H2PP_DEC_14", ⟨none, [.tok (.num "13")]⟩),
  ("H2PP_DEC_15", ⟨none, [.tok (.num "14")]⟩),
  ("H2PP_DEC_16", ⟨none, [.tok (.num "15")]⟩),
  ("H2PP_DEC_17", ⟨none, [.tok (.num "16")]⟩),
  ("H2PP_DEC_18", ⟨none, [.tok (.num "17")]⟩),
  ("H2PP_DEC_19", ⟨none, [.tok (.num "18")]⟩),
  ("H2PP_DEC_20", ⟨none, [.tok (.num "19")]⟩),
  ("H2PP_DEC_21", ⟨none, [.tok (.num "20")]⟩),
  ("H2PP_DEC_22", ⟨none, [.tok (.num "21")]⟩),
  ("H2PP_DEC_23", ⟨none, [.tok (.num "22")]⟩),
  ("H2PP_DEC_24", ⟨none, [.tok (.num "23")]⟩),
  ("H2PP_DEC_25", ⟨none, [.tok (.num "24")]⟩),
  ("H2PP_DEC_26", ⟨none, [.tok (.num "25")]⟩),
  ("H2PP_DEC_27", ⟨none, [.tok (.num "26")]⟩),
  ("H2PP_DEC_28", ⟨none, [.tok (.num "27")]⟩),
  ("H2PP_DEC_29", ⟨none, [.tok (.num "28")]⟩),
  ("H2PP_DEC_30", ⟨none, [.tok (.num "29")]⟩),
  ("H2PP_DEC_31", ⟨none, [.tok (.num "30")]⟩),
  ("H2PP_DEC_32", ⟨none, [.tok (.num "31")]⟩),
  ("_H2PP_EVAL_128", ⟨some (0, true), [.tok (.id "_H2PP_EVAL_64"), .tok .lp, .tok (.id "_H2PP_EVAL_64"), .tok .lp, .arg 0, .tok .rp, .tok .rp]⟩),
  ("_H2PP_EVAL_64", ⟨some (0, true), [.tok (.id "_H2PP_EVAL_32"), .tok .lp, .tok (.id "_H2PP_EVAL_32"), .tok .lp, .arg 0, .tok .rp, .tok .rp]⟩),
  ("_H2PP_EVAL_32", ⟨some (0, true), [.tok (.id "_H2PP_EVAL_16"), .tok .lp, .tok (.id "_H2PP_EVAL_16"), .tok .lp, .arg 0, .tok .rp, .tok .rp]⟩),
  ("_H2PP_EVAL_16", ⟨some (0, true), [.tok (.id "_H2PP_EVAL_8"), .tok .lp, .tok (.id "_H2PP_EVAL_8"), .tok .lp, .arg 0, .tok .rp, .tok .rp]⟩),
  ("_H2PP_EVAL_8", ⟨some (0, true), [.tok (.id "_H2PP_EVAL_4"), .tok .lp, .tok (.id "_H2PP_EVAL_4"), .tok .lp, .arg 0, .tok .rp, .tok .rp]⟩),
  ("_H2PP_EVAL_4", ⟨some (0, true), [.tok (.id "_H2PP_EVAL_2"), .tok .lp, .tok (.id "_H2PP_EVAL_2"), .tok .lp, .arg 0, .tok .rp, .tok .rp]⟩),
  ("_H2PP_EVAL_2", ⟨some (0, true), [.tok (.id "_H2PP_EVAL_1"), .tok .lp, .tok (.id "_H2PP_EVAL_1"), .tok .lp, .arg 0, .tok .rp, .tok .rp]⟩),
  ("_H2PP_EVAL_1", ⟨some (0, true), [.arg 0]⟩),
  ("_H2PP_64TH", ⟨some (65, true), [.arg 64]⟩),
  ("H2PP_HAS_COMMA", ⟨some (0, true), [.tok (.id "H2PP_PROXY"), .tok .lp, .tok (.id "_H2PP_64TH"), .tok .comma, .tok .lp, .arg 0, .tok .comma, .tok
    (.num "1"), .tok .comma, .tok (.num "1"), .tok .comma, .tok (.num "1"), .tok .comma, .tok (.num "1"), .tok .comma, .tok (.num "1"), .tok .comma,
    .tok (.num "1"), .tok .comma, .tok (.num "1"), .tok .comma, .tok (.num "1"), .tok .comma, .tok (.num "1"), .tok .comma, .tok (.num "1"), .tok
    .comma, .tok (.num "1"), .tok .comma, .tok (.num "1"), .tok .comma, .tok (.num "1"), .tok .comma, .tok (.num "1"), .tok .comma, .tok (.num "1"),
    .tok .comma, .tok (.num "1"), .tok .comma, .tok (.num "1"), .tok .comma, .tok (.num "1"), .tok .comma, .tok (.num "1"), .tok .comma, .tok (.num
    "1"), .tok .comma, .tok (.num "1"), .tok .comma, .tok (.num "1"), .tok .comma, .tok (.num "1"), .tok .comma, .tok (.num "1"), .tok .comma, .tok
    (.num "1"), .tok .comma, .tok (.num "1"), .tok .comma, .tok (.num "1"), .tok .comma, .tok (.num "1"), .tok .comma, .tok (.num "1"), .tok .comma,
    .tok (.num "1"), .tok .comma, .tok (.num "1"), .tok .comma, .tok (.num "1"), .tok .comma, .tok (.num "1"), .tok .comma, .tok (.num "1"), .tok
    .comma, .tok (.num "1"), .tok .comma, .tok (.num "1"), .tok .comma, .tok (.num "1"), .tok .comma, .tok (.num "1"), .tok .comma, .tok (.num "1"),
    .tok .comma, .tok (.num "1"), .tok .comma, .tok (.num "1"), .tok .comma, .tok (.num "1"), .tok .comma, .tok (.num "1"), .tok .comma, .tok (.num
    "1"), .tok .comma, .tok (.num "1"), .tok .comma, .tok (.num "1"), .tok .comma, .tok (.num "1"), .tok .comma, .tok (.num "1"), .tok .comma, .tok
    (.num "1"), .tok .comma, .tok (.num "1"), .tok .comma, .tok (.num "1"), .tok .comma, .tok (.num "1"), .tok .comma, .tok (.num "1"), .tok .comma,
    .tok (.num "1"), .tok .comma, .tok (.num "1"), .tok .comma, .tok (.num "1"), .tok .comma, .tok (.num "1"), .tok .comma, .tok (.num "1"), .tok
    .comma, .tok (.num "1"), .tok .comma, .tok (.num "1"), .tok .comma, .tok (.num "1"), .tok .comma, .tok (.num "1"), .tok .comma, .tok (.num "1"),
    .tok .comma, .tok (.num "0"), .tok .rp, .tok .rp]⟩),
  ("H2PP_ARG_COUNT", ⟨some (0, true), [.tok (.id "H2PP_PROXY"), .tok .lp, .tok (.id "_H2PP_64TH"), .tok .comma, .tok .lp, .arg 0, .tok .comma, .tok
    (.num "64"), .tok .comma, .tok (.num "63"), .tok .comma, .tok (.num "62"), .tok .comma, .tok (.num "61"), .tok .comma, .tok (.num "60"), .tok
    .comma, .tok (.num "59"), .tok .comma, .tok (.num "58"), .tok .comma, .tok (.num "57"), .tok .comma, .tok (.num "56"), .tok .comma, .tok (.num
    "55"), .tok .comma, .tok (.num "54"), .tok .comma, .tok (.num "53"), .tok .comma, .tok (.num "52"), .tok .comma, .tok (.num "51"), .tok .comma,
    .tok (.num "50"), .tok .comma, .tok (.num "49"), .tok .comma, .tok (.num "48"), .tok .comma, .tok (.num "47"), .tok .comma, .tok (.num "46"),
    .tok .comma, .tok (.num "45"), .tok .comma, .tok (.num "44"), .tok .comma, .tok (.num "43"), .tok .comma, .tok (.num "42"), .tok .comma, .tok
    (.num "41"), .tok .comma, .tok (.num "40"), .tok .comma, .tok (.num "39"), .tok .comma, .tok (.num "38"), .tok .comma, .tok (.num "37"), .tok
    .comma, .tok (.num "36"), .tok .comma, .tok (.num "35"), .tok .comma, .tok (.num "34"), .tok .comma, .tok (.num "33"), .tok .comma, .tok (.num
    "32"), .tok .comma, .tok (.num "31"), .tok .comma, .tok (.num "30"), .tok .comma, .tok (.num "29"), .tok .comma, .tok (.num "28"), .tok .comma,
    .tok (.num "27"), .tok .comma, .tok (.num "26"), .tok .comma, .tok (.num "25"), .tok .comma, .tok (.num "24"), .tok .comma, .tok (.num "23"),
    .tok .comma, .tok (.num "22"), .tok .comma, .tok (.num "21"), .tok .comma, .tok (.num "20"), .tok .comma, .tok (.num "19"), .tok .comma, .tok
    (.num "18"), .tok .comma, .tok (.num "17"), .tok .comma, .tok (.num "16"), .tok .comma, .tok (.num "15"), .tok .comma, .tok (.num "14"), .tok
    .comma, .tok (.num "13"), .tok .comma, .tok (.num "12"), .tok .comma, .tok (.num "11"), .tok .comma, .tok (.num "10"), .tok .comma, .tok (.num
    "9"), .tok .comma, .tok (.num "8"), .tok .comma, .tok (.num "7"), .tok .comma, .tok (.num "6"), .tok .comma, .tok (.num "5"), .tok .comma, .tok
    (.num "4"), .tok .comma, .tok (.num "3"), .tok .comma, .tok (.num "2"), .tok .comma, .tok (.num "1"), .tok .rp, .tok .rp]⟩)]

/-- `/repo/source/utils/h2_macro.hpp:6-145`. -/
def written : List (String × Macro) := [
  ("H2PP_CAT", ⟨some (2, false), [.tok (.id "_H2PP_CAT2"), .tok .lp, .arg 0, .tok .comma, .arg 1, .tok .rp]⟩),
  ("H2PP_CAT2", ⟨some (2, false), [.tok (.id "_H2PP_CAT2"), .tok .lp, .arg 0, .tok .comma, .arg 1, .tok .rp]⟩),
  ("_H2PP_CAT2", ⟨some (2, false), [.cat [.raw 0, .raw 1]]⟩),
  ("H2PP_CAT5", ⟨some (5, false), [.tok (.id "_H2PP_CAT5"), .tok .lp, .arg 0, .tok .comma, .arg 1, .tok .comma, .arg 2, .tok .comma, .arg 3, .tok
    .comma, .arg 4, .tok .rp]⟩),
  ("_H2PP_CAT5", ⟨some (5, false), [.cat [.raw 0, .raw 1, .raw 2, .raw 3, .raw 4]]⟩),
  ("H2PP_COMMA", ⟨some (0, true), [.tok .comma]⟩),
  ("H2PP_EMPTY", ⟨some (0, true), []⟩),
  ("H2PP_DEFER", ⟨some (0, true), [.arg 0, .tok (.id "H2PP_EMPTY"), .tok .lp, .tok .rp]⟩),
  ("H2PP_RESCAN", ⟨some (1, false), [.arg 0]⟩),
  ("H2PP_PROXY", ⟨some (2, false), [.tok (.id "_H2PP_PROXY"), .tok .lp, .arg 0, .tok .comma, .arg 1, .tok .rp]⟩),
  ("H2PP_PROXY2", ⟨some (3, false), [.tok (.id "_H2PP_PROXY"), .tok .lp, .tok (.id "_H2PP_CAT2"), .tok .lp, .arg 0, .tok .comma, .arg 1, .tok .rp,
    .tok .comma, .arg 2, .tok .rp]⟩),
  ("_H2PP_PROXY", ⟨some (2, false), [.tok (.id "H2PP_RESCAN"), .tok .lp, .arg 0, .arg 1, .tok .rp]⟩),
  ("H2PP_IS_PROBE", ⟨some (0, true), [.tok (.id "_H2PP_TH1"), .tok .lp, .arg 0, .tok .comma, .tok (.num "0"), .tok .comma, .tok .rp]⟩),
  ("H2PP_PROBE", ⟨some (0, false), [.tok (.other "~"), .tok .comma, .tok (.num "1"), .tok .comma]⟩),
  ("H2PP_EVAL", ⟨some (0, true), [.tok (.id "_H2PP_EVAL_128"), .tok .lp, .arg 0, .tok .rp]⟩),
  ("H2PP_EQ", ⟨some (2, false), [.tok (.id "H2PP_IS_PROBE"), .tok .lp, .tok (.id "H2PP_CAT5"), .tok .lp, .tok (.id "_H2PP_EQ"), .tok .comma, .tok
    (.id "__"), .tok .comma, .arg 0, .tok .comma, .tok (.id "__"), .tok .comma, .arg 1, .tok .rp, .tok .rp]⟩),
  ("H2PP_NOT", ⟨some (1, false), [.tok (.id "H2PP_IS_PROBE"), .tok .lp, .tok (.id "_H2PP_CAT2"), .tok .lp, .tok (.id "_H2PP_NOT_"), .tok .comma, .arg
    0, .tok .rp, .tok .rp]⟩),
  ("_H2PP_NOT_0", ⟨none, [.tok (.id "H2PP_PROBE"), .tok .lp, .tok .rp]⟩),
  ("H2PP_COMPL", ⟨some (1, false), [.tok (.id "_H2PP_CAT2"), .tok .lp, .tok (.id "_H2PP_COMPL_"), .tok .comma, .arg 0, .tok .rp]⟩),
  ("_H2PP_COMPL_0", ⟨none, [.tok (.num "1")]⟩),
  ("_H2PP_COMPL_1", ⟨none, [.tok (.num "0")]⟩),
  ("H2PP_BOOL", ⟨some (1, false), [.tok (.id "H2PP_COMPL"), .tok .lp, .tok (.id "H2PP_NOT"), .tok .lp, .arg 0, .tok .rp, .tok .rp]⟩),
  ("H2PP_AND", ⟨some (2, false), [.tok (.id "H2PP_CAT2"), .tok .lp, .tok (.id "_H2PP_AND_"), .tok .comma, .tok (.id "H2PP_BOOL"), .tok .lp, .arg 0,
    .tok .rp, .tok .rp, .tok .lp, .tok (.id "H2PP_BOOL"), .tok .lp, .arg 1, .tok .rp, .tok .rp]⟩),
  ("_H2PP_AND_0", ⟨some (1, false), [.tok (.num "0")]⟩),
  ("_H2PP_AND_1", ⟨some (1, false), [.arg 0]⟩),
  ("H2PP_OR", ⟨some (2, false), [.tok (.id "H2PP_CAT2"), .tok .lp, .tok (.id "_H2PP_OR_"), .tok .comma, .tok (.id "H2PP_BOOL"), .tok .lp, .arg 0,
    .tok .rp, .tok .rp, .tok .lp, .tok (.id "H2PP_BOOL"), .tok .lp, .arg 1, .tok .rp, .tok .rp]⟩),
  ("_H2PP_OR_0", ⟨some (1, false), [.arg 0]⟩),
  ("_H2PP_OR_1", ⟨some (1, false), [.tok (.num "1")]⟩),
  ("H2PP_IF_ELSE", ⟨some (3, false), [.tok (.id "H2PP_CAT2"), .tok .lp, .tok (.id "_H2PP_IF_ELSE_"), .tok .comma, .arg 0, .tok .rp, .tok .lp, .arg 1,
    .tok .comma, .arg 2, .tok .rp]⟩),
  ("_H2PP_IF_ELSE_1", ⟨some (2, false), [.arg 0]⟩),
  ("_H2PP_IF_ELSE_0", ⟨some (2, false), [.arg 1]⟩),
  ("H2PP_IF", ⟨some (1, false), [.tok (.id "H2PP_CAT2"), .tok .lp, .tok (.id "_H2PP_IF_"), .tok .comma, .tok (.id "H2PP_BOOL"), .tok .lp, .arg 0,
    .tok .rp, .tok .rp]⟩),
  ("_H2PP_IF_1", ⟨some (0, true), [.arg 0]⟩),
  ("_H2PP_IF_0", ⟨some (0, true), []⟩),
  ("H2PP_IS_BEGIN_PARENTHESIS", ⟨some (0, true), [.tok (.id "H2PP_IS_PROBE"), .tok .lp, .tok (.id "_H2PP_IS_BEGIN_PARENTHESIS_PROBE"), .arg 0, .tok
    .rp]⟩),
  ("_H2PP_IS_BEGIN_PARENTHESIS_PROBE", ⟨some (0, true), [.tok (.id "H2PP_PROBE"), .tok .lp, .tok .rp]⟩),
  ("H2PP_IS_PARENTHESIS", ⟨some (0, true), [.tok (.id "H2PP_IF_ELSE"), .tok .lp, .tok (.id "H2PP_IS_BEGIN_PARENTHESIS"), .tok .lp, .arg 0, .tok .rp,
    .tok .comma, .tok (.id "H2PP_IS_EMPTY"), .tok .lp, .tok (.id "H2PP_EMPTY"), .arg 0, .tok .rp, .tok .comma, .tok (.num "0"), .tok .rp]⟩),
  ("H2PP_REMOVE_PARENTHESES", ⟨some (0, true), [.tok (.id "_H2PP_REMOVE_PARENTHESES"), .arg 0]⟩),
  ("_H2PP_REMOVE_PARENTHESES", ⟨some (0, true), [.arg 0]⟩),
  ("H2PP_REMOVE_PARENTHESES_IF", ⟨some (0, true), [.tok (.id "H2PP_CAT2"), .tok .lp, .tok (.id "_H2PP_REMOVE_PARENTHESES_IF_"), .tok .comma, .tok
    (.id "H2PP_IS_PARENTHESIS"), .tok .lp, .arg 0, .tok .rp, .tok .rp, .tok .lp, .arg 0, .tok .rp]⟩),
  ("_H2PP_REMOVE_PARENTHESES_IF_1", ⟨some (0, true), [.tok (.id "H2PP_REMOVE_PARENTHESES"), .tok .lp, .arg 0, .tok .rp]⟩),
  ("_H2PP_REMOVE_PARENTHESES_IF_0", ⟨some (0, true), [.arg 0]⟩),
  ("H2PP_IS_EMPTY", ⟨some (0, true), [.tok (.id "_H2PP_IS_EMPTY"), .tok .lp, .tok (.id "H2PP_HAS_COMMA"), .tok .lp, .arg 0, .tok .rp, .tok .comma,
    .tok (.id "H2PP_HAS_COMMA"), .tok .lp, .tok (.id "H2PP_COMMA"), .arg 0, .tok .rp, .tok .comma, .tok (.id "H2PP_HAS_COMMA"), .tok .lp, .arg 0,
    .tok .lp, .tok .rp, .tok .rp, .tok .comma, .tok (.id "H2PP_HAS_COMMA"), .tok .lp, .tok (.id "H2PP_COMMA"), .arg 0, .tok .lp, .tok .rp, .tok .rp,
    .tok .rp]⟩),
  ("_H2PP_IS_EMPTY", ⟨some (4, false), [.tok (.id "H2PP_HAS_COMMA"), .tok .lp, .tok (.id "_H2PP_CAT5"), .tok .lp, .tok (.id "_H2PP_IS_EMPTY_CASE_"),
    .tok .comma, .arg 0, .tok .comma, .arg 1, .tok .comma, .arg 2, .tok .comma, .arg 3, .tok .rp, .tok .rp]⟩),
  ("_H2PP_IS_EMPTY_CASE_0001", ⟨none, [.tok .comma]⟩),
  ("H2PP_NARG", ⟨some (0, true), [.tok (.id "H2PP_CAT"), .tok .lp, .tok (.id "_H2PP_NARG_"), .tok .comma, .tok (.id "H2PP_IS_EMPTY"), .tok .lp, .arg
    0, .tok .rp, .tok .rp, .tok .lp, .arg 0, .tok .rp]⟩),
  ("_H2PP_NARG_0", ⟨some (0, true), [.tok (.id "H2PP_ARG_COUNT"), .tok .lp, .arg 0, .tok .rp]⟩),
  ("_H2PP_NARG_1", ⟨some (0, true), [.tok (.num "0")]⟩),
  ("H2PP_NCALL", ⟨some (2, true), [.tok (.id "H2PP_RESCAN"), .tok .lp, .tok (.id "H2PP_CAT2"), .tok .lp, .arg 0, .tok .comma, .tok (.id "H2PP_EQ"),
    .tok .lp, .arg 1, .tok .comma, .tok (.id "H2PP_NARG"), .tok .lp, .arg 2, .tok .rp, .tok .rp, .tok .rp, .tok .lp, .arg 2, .tok .rp, .tok .rp]⟩),
  ("H2PP_VCALL", ⟨some (1, true), [.tok (.id "H2PP_RESCAN"), .tok .lp, .tok (.id "H2PP_CAT2"), .tok .lp, .arg 0, .tok .comma, .tok (.id "H2PP_NARG"),
    .tok .lp, .arg 1, .tok .rp, .tok .rp, .tok .lp, .arg 1, .tok .rp, .tok .rp]⟩),
  ("H2PP_HEAD", ⟨some (0, true), [.tok (.id "H2PP_CAT2"), .tok .lp, .tok (.id "_H2PP_HEAD_"), .tok .comma, .tok (.id "H2PP_IS_EMPTY"), .tok .lp, .arg
    0, .tok .rp, .tok .rp, .tok .lp, .tok .lp, .arg 0, .tok .rp, .tok .rp]⟩),
  ("_H2PP_HEAD_0", ⟨some (1, false), [.tok (.id "H2PP_RESCAN"), .tok .lp, .tok (.id "_H2PP_HEAD_0_R"), .arg 0, .tok .rp]⟩),
  ("_H2PP_HEAD_0_R", ⟨some (1, true), [.arg 0]⟩),
  ("_H2PP_HEAD_1", ⟨some (0, true), []⟩),
  ("H2PP_TAIL", ⟨some (0, true), [.tok (.id "H2PP_CAT2"), .tok .lp, .tok (.id "_H2PP_TAIL_"), .tok .comma, .tok (.id "H2PP_IS_EMPTY"), .tok .lp, .arg
    0, .tok .rp, .tok .rp, .tok .lp, .tok .lp, .arg 0, .tok .rp, .tok .rp]⟩),
  ("_H2PP_TAIL_0", ⟨some (1, false), [.tok (.id "H2PP_RESCAN"), .tok .lp, .tok (.id "_H2PP_TAIL_0_R"), .arg 0, .tok .rp]⟩),
  ("_H2PP_TAIL_0_R", ⟨some (1, true), [.arg 1]⟩),
  ("_H2PP_TAIL_1", ⟨some (0, true), []⟩),
  ("H2PP_LAST", ⟨some (0, true), [.tok (.id "H2PP_EVAL"), .tok .lp, .tok (.id "_H2PP_LAST"), .tok .lp, .arg 0, .tok .rp, .tok .rp]⟩),
  ("_H2PP_LAST", ⟨some (0, true), [.tok (.id "H2PP_CAT2"), .tok .lp, .tok (.id "_H2PP_LAST_"), .tok .comma, .tok (.id "H2PP_IS_EMPTY"), .tok .lp,
    .arg 0, .tok .rp, .tok .rp, .tok .lp, .arg 0, .tok .rp]⟩),
  ("_H2PP_LAST_1", ⟨some (0, true), []⟩),
  ("_H2PP_LAST_0", ⟨some (0, true), [.tok (.id "H2PP_CAT2"), .tok .lp, .tok (.id "_H2PP_LAST_0_"), .tok .comma, .tok (.id "H2PP_EQ"), .tok .lp, .tok
    (.num "1"), .tok .comma, .tok (.id "H2PP_NARG"), .tok .lp, .arg 0, .tok .rp, .tok .rp, .tok .rp, .tok .lp, .arg 0, .tok .rp]⟩),
  ("_H2PP_LAST_0_1", ⟨some (0, true), [.arg 0]⟩),
  ("_H2PP_LAST_0_0", ⟨some (0, true), [.tok (.id "H2PP_DEFER"), .tok .lp, .tok (.id "__H2PP_LAST"), .tok .rp, .tok .lp, .tok .rp, .tok .lp, .tok (.id
    "H2PP_TAIL"), .tok .lp, .arg 0, .tok .rp, .tok .rp]⟩),
  ("__H2PP_LAST", ⟨some (0, false), [.tok (.id "_H2PP_LAST_0")]⟩),
  ("H2PP_REPEAT", ⟨some (4, false), [.tok (.id "H2PP_EVAL"), .tok .lp, .tok (.id "_H2PP_REPEAT"), .tok .lp, .arg 0, .tok .comma, .arg 1, .tok .comma,
    .arg 2, .tok .comma, .arg 3, .tok .rp, .tok .rp]⟩),
  ("_H2PP_REPEAT", ⟨some (4, false), [.tok (.id "H2PP_CAT2"), .tok .lp, .tok (.id "_H2PP_REPEAT_"), .tok .comma, .tok (.id "H2PP_BOOL"), .tok .lp,
    .arg 3, .tok .rp, .tok .rp, .tok .lp, .arg 0, .tok .comma, .arg 1, .tok .comma, .arg 2, .tok .comma, .arg 3, .tok .rp]⟩),
  ("_H2PP_REPEAT_0", ⟨some (0, true), []⟩),
  ("_H2PP_REPEAT_1", ⟨some (4, false), [.tok (.id "H2PP_DEFER"), .tok .lp, .tok (.id "__H2PP_REPEAT"), .tok .rp, .tok .lp, .tok .rp, .tok .lp, .arg
    0, .tok .comma, .arg 1, .tok .comma, .arg 2, .tok .comma, .tok (.id "H2PP_CAT2"), .tok .lp, .tok (.id "H2PP_DEC_"), .tok .comma, .arg 3, .tok
    .rp, .tok .rp, .tok (.id "_H2PP_REPEAT_CALL_MACRO"), .tok .lp, .arg 0, .tok .comma, .arg 1, .tok .comma, .arg 2, .tok .comma, .tok (.id
    "H2PP_CAT2"), .tok .lp, .tok (.id "H2PP_DEC_"), .tok .comma, .arg 3, .tok .rp, .tok .rp]⟩),
  ("__H2PP_REPEAT", ⟨some (0, false), [.tok (.id "_H2PP_REPEAT")]⟩),
  ("_H2PP_REPEAT_CALL_MACRO", ⟨some (4, false), [.tok (.id "H2PP_CAT2"), .tok .lp, .tok (.id "_H2PP_REPEAT_CALL_MACRO_"), .tok .comma, .tok (.id
    "H2PP_EQ"), .tok .lp, .tok (.num "0"), .tok .comma, .arg 3, .tok .rp, .tok .rp, .tok .lp, .arg 0, .tok .comma, .arg 1, .tok .comma, .arg 2, .tok
    .comma, .arg 3, .tok .rp]⟩),
  ("_H2PP_REPEAT_CALL_MACRO_1", ⟨some (4, false), [.arg 1, .tok .lp, .arg 2, .tok .comma, .arg 3, .tok .rp]⟩),
  ("_H2PP_REPEAT_CALL_MACRO_0", ⟨some (4, false), [.tok (.id "H2PP_REMOVE_PARENTHESES_IF"), .tok .lp, .arg 0, .tok .rp, .arg 1, .tok .lp, .arg 2,
    .tok .comma, .arg 3, .tok .rp]⟩),
  ("H2PP_FOREACH", ⟨some (3, true), [.tok (.id "H2PP_EVAL"), .tok .lp, .tok (.id "_H2PP_FOREACH"), .tok .lp, .arg 0, .tok .comma, .arg 1, .tok
    .comma, .arg 2, .tok .comma, .tok (.num "0"), .tok .comma, .arg 3, .tok .rp, .tok .rp]⟩),
  ("_H2PP_FOREACH", ⟨some (4, true), [.tok (.id "H2PP_CAT2"), .tok .lp, .tok (.id "_H2PP_FOREACH_"), .tok .comma, .tok (.id "H2PP_IS_EMPTY"), .tok
    .lp, .arg 4, .tok .rp, .tok .rp, .tok .lp, .arg 0, .tok .comma, .arg 1, .tok .comma, .arg 2, .tok .comma, .arg 3, .tok .comma, .arg 4, .tok
    .rp]⟩),
  ("_H2PP_FOREACH_1", ⟨some (0, true), []⟩),
  ("_H2PP_FOREACH_0", ⟨some (4, true), [.tok (.id "_H2PP_FOREACH_CALL_MACRO"), .tok .lp, .arg 0, .tok .comma, .arg 1, .tok .comma, .arg 2, .tok
    .comma, .arg 3, .tok .comma, .tok (.id "H2PP_HEAD"), .tok .lp, .arg 4, .tok .rp, .tok .rp, .tok (.id "H2PP_DEFER"), .tok .lp, .tok (.id
    "__H2PP_FOREACH"), .tok .rp, .tok .lp, .tok .rp, .tok .lp, .arg 0, .tok .comma, .arg 1, .tok .comma, .arg 2, .tok .comma, .tok (.id "H2PP_CAT2"),
    .tok .lp, .tok (.id "H2PP_INC_"), .tok .comma, .arg 3, .tok .rp, .tok .comma, .tok (.id "H2PP_TAIL"), .tok .lp, .arg 4, .tok .rp, .tok .rp]⟩),
  ("__H2PP_FOREACH", ⟨some (0, false), [.tok (.id "_H2PP_FOREACH")]⟩),
  ("_H2PP_FOREACH_CALL_MACRO", ⟨some (5, false), [.tok (.id "H2PP_CAT2"), .tok .lp, .tok (.id "_H2PP_FOREACH_CALL_MACRO_"), .tok .comma, .tok (.id
    "H2PP_EQ"), .tok .lp, .tok (.num "0"), .tok .comma, .arg 3, .tok .rp, .tok .rp, .tok .lp, .arg 0, .tok .comma, .arg 1, .tok .comma, .arg 2, .tok
    .comma, .arg 3, .tok .comma, .arg 4, .tok .rp]⟩),
  ("_H2PP_FOREACH_CALL_MACRO_1", ⟨some (5, false), [.arg 1, .tok .lp, .arg 2, .tok .comma, .arg 3, .tok .comma, .arg 4, .tok .rp]⟩),
  ("_H2PP_FOREACH_CALL_MACRO_0", ⟨some (5, false), [.tok (.id "H2PP_REMOVE_PARENTHESES_IF"), .tok .lp, .arg 0, .tok .rp, .arg 1, .tok .lp, .arg 2,
    .tok .comma, .arg 3, .tok .comma, .arg 4, .tok .rp]⟩),
  ("H2PP_FULLMESH", ⟨some (3, true), [.tok (.id "H2PP_RESCAN"), .tok .lp, .tok (.id "H2PP_CAT2"), .tok .lp, .tok (.id "_H2PP_FULLMESH1_"), .tok
    .comma, .tok (.id "H2PP_IS_EMPTY"), .tok .lp, .arg 3, .tok .rp, .tok .rp, .tok .lp, .tok .lp, .arg 0, .tok .comma, .arg 1, .tok .comma, .arg 2,
    .tok .comma, .arg 3, .tok .rp, .tok .rp, .tok .rp]⟩),
  ("_H2PP_FULLMESH1_1", ⟨some (0, true), []⟩),
  ("_H2PP_FULLMESH1_0", ⟨some (1, false), [.tok (.id "H2PP_RESCAN"), .tok .lp, .tok (.id "H2PP_FULLMESH1"), .arg 0, .tok .rp]⟩),
  ("H2PP_FULLMESH1", ⟨some (4, true), [.tok (.id "H2PP_CAT2"), .tok .lp, .tok (.id "_H2PP_FULLMESH2_"), .tok .comma, .tok (.id "H2PP_IS_EMPTY"), .tok
    .lp, .arg 4, .tok .rp, .tok .rp, .tok .lp, .arg 0, .tok .comma, .arg 1, .tok .comma, .arg 2, .tok .comma, .arg 3, .tok .comma, .arg 4, .tok
    .rp]⟩),
  ("_H2PP_FULLMESH2_1", ⟨some (4, true), [.tok (.id "H2PP_FULLMESH2"), .tok .lp, .arg 0, .tok .comma, .arg 1, .tok .comma, .arg 2, .tok .comma, .arg
    3, .tok .comma, .arg 3, .tok .rp]⟩),
  ("_H2PP_FULLMESH2_0", ⟨some (0, true), [.tok (.id "_H2PP_FULLMESH2_0_R"), .tok .lp, .tok .lp, .arg 0, .tok .rp, .tok .rp]⟩),
  ("_H2PP_FULLMESH2_0_R", ⟨some (1, false), [.tok (.id "H2PP_RESCAN"), .tok .lp, .tok (.id "H2PP_FULLMESH2"), .arg 0, .tok .rp]⟩),
  ("H2PP_FULLMESH2", ⟨some (5, false), [.tok (.id "H2PP_EVAL"), .tok .lp, .tok (.id "_H2PP_FOREACHx"), .tok .lp, .arg 0, .tok .comma, .arg 1, .tok
    .comma, .arg 2, .tok .comma, .tok (.num "0"), .tok .comma, .arg 4, .tok .comma, .tok (.id "H2PP_REMOVE_PARENTHESES"), .tok .lp, .arg 3, .tok .rp,
    .tok .rp, .tok .rp]⟩),
  ("_H2PP_FOREACHx", ⟨some (5, true), [.tok (.id "H2PP_CAT2"), .tok .lp, .tok (.id "_H2PP_FOREACHx_"), .tok .comma, .tok (.id "H2PP_IS_EMPTY"), .tok
    .lp, .arg 5, .tok .rp, .tok .rp, .tok .lp, .arg 0, .tok .comma, .arg 1, .tok .comma, .arg 2, .tok .comma, .arg 3, .tok .comma, .arg 4, .tok
    .comma, .arg 5, .tok .rp]⟩),
  ("_H2PP_FOREACHx_1", ⟨some (0, true), []⟩),
  ("_H2PP_FOREACHx_0", ⟨some (5, true), [.tok (.id "_H2PP_FOREACHy"), .tok .lp, .arg 0, .tok .comma, .arg 1, .tok .comma, .arg 2, .tok .comma, .arg
    3, .tok .comma, .tok (.num "0"), .tok .comma, .tok (.id "H2PP_HEAD"), .tok .lp, .arg 5, .tok .rp, .tok .comma, .tok (.id
    "H2PP_REMOVE_PARENTHESES"), .tok .lp, .arg 4, .tok .rp, .tok .rp, .tok (.id "H2PP_DEFER"), .tok .lp, .tok (.id "__H2PP_FOREACHx"), .tok .rp, .tok
    .lp, .tok .rp, .tok .lp, .arg 0, .tok .comma, .arg 1, .tok .comma, .arg 2, .tok .comma, .tok (.id "H2PP_CAT2"), .tok .lp, .tok (.id "H2PP_INC_"),
    .tok .comma, .arg 3, .tok .rp, .tok .comma, .arg 4, .tok .comma, .tok (.id "H2PP_TAIL"), .tok .lp, .arg 5, .tok .rp, .tok .rp]⟩),
  ("__H2PP_FOREACHx", ⟨some (0, false), [.tok (.id "_H2PP_FOREACHx")]⟩),
  ("_H2PP_FOREACHy", ⟨some (6, true), [.tok (.id "H2PP_CAT2"), .tok .lp, .tok (.id "_H2PP_FOREACHy_"), .tok .comma, .tok (.id "H2PP_IS_EMPTY"), .tok
    .lp, .arg 6, .tok .rp, .tok .rp, .tok .lp, .arg 0, .tok .comma, .arg 1, .tok .comma, .arg 2, .tok .comma, .arg 3, .tok .comma, .arg 4, .tok
    .comma, .arg 5, .tok .comma, .arg 6, .tok .rp]⟩),
  ("_H2PP_FOREACHy_1", ⟨some (0, true), []⟩),
  ("_H2PP_FOREACHy_0", ⟨some (6, true), [.tok (.id "_H2PP_FULLMESH_CALL_MACRO"), .tok .lp, .arg 0, .tok .comma, .arg 1, .tok .comma, .arg 2, .tok
    .comma, .arg 3, .tok .comma, .arg 4, .tok .comma, .arg 5, .tok .comma, .tok (.id "H2PP_HEAD"), .tok .lp, .arg 6, .tok .rp, .tok .rp, .tok (.id
    "H2PP_DEFER"), .tok .lp, .tok (.id "__H2PP_FOREACHy"), .tok .rp, .tok .lp, .tok .rp, .tok .lp, .arg 0, .tok .comma, .arg 1, .tok .comma, .arg 2,
    .tok .comma, .arg 3, .tok .comma, .tok (.id "H2PP_CAT2"), .tok .lp, .tok (.id "H2PP_INC_"), .tok .comma, .arg 4, .tok .rp, .tok .comma, .arg 5,
    .tok .comma, .tok (.id "H2PP_TAIL"), .tok .lp, .arg 6, .tok .rp, .tok .rp]⟩),
  ("__H2PP_FOREACHy", ⟨some (0, false), [.tok (.id "_H2PP_FOREACHy")]⟩),
  ("_H2PP_FULLMESH_CALL_MACRO", ⟨some (7, false), [.tok (.id "H2PP_CAT2"), .tok .lp, .tok (.id "_H2PP_FULLMESH_CALL_MACRO_"), .tok .comma, .tok (.id
    "H2PP_AND"), .tok .lp, .tok (.id "H2PP_EQ"), .tok .lp, .tok (.num "0"), .tok .comma, .arg 3, .tok .rp, .tok .comma, .tok (.id "H2PP_EQ"), .tok
    .lp, .tok (.num "0"), .tok .comma, .arg 4, .tok .rp, .tok .rp, .tok .rp, .tok .lp, .arg 0, .tok .comma, .arg 1, .tok .comma, .arg 2, .tok .comma,
    .arg 3, .tok .comma, .arg 4, .tok .comma, .arg 5, .tok .comma, .arg 6, .tok .rp]⟩),
  ("_H2PP_FULLMESH_CALL_MACRO_1", ⟨some (7, false), [.arg 1, .tok .lp, .arg 2, .tok .comma, .arg 3, .tok .comma, .arg 4, .tok .comma, .arg 5, .tok
    .comma, .arg 6, .tok .rp]⟩),
  ("_H2PP_FULLMESH_CALL_MACRO_0", ⟨some (7, false), [.tok (.id "H2PP_REMOVE_PARENTHESES_IF"), .tok .lp, .arg 0, .tok .rp, .arg 1, .tok .lp, .arg 2,
    .tok .comma, .arg 3, .tok .comma, .arg 4, .tok .comma, .arg 5, .tok .comma, .arg 6, .tok .rp]⟩)]

/-- `/repo/source/utils/h2_misc.hpp:17-21`. -/
def uses : List (String × Macro) := [
  ("H2Foreach", ⟨some (1, true), [.tok (.id "H2PP_FOREACH"), .tok .lp, .tok .comma, .tok (.id "_H2ForeachMacro"), .tok .comma, .tok .lp, .arg 0, .tok
    .rp, .tok .comma, .tok (.id "H2PP_REMOVE_PARENTHESES_IF"), .tok .lp, .arg 1, .tok .rp, .tok .rp]⟩),
  ("_H2ForeachMacro", ⟨some (3, false), [.tok (.id "H2PP_REMOVE_PARENTHESES"), .tok .lp, .arg 0, .tok .rp, .tok .lp, .arg 2, .tok .rp]⟩),
  ("H2Fullmesh", ⟨some (1, true), [.tok (.id "H2PP_FULLMESH"), .tok .lp, .tok .comma, .tok (.id "_H2FullmeshMacro"), .tok .comma, .tok .lp, .arg 0,
    .tok .rp, .tok .comma, .arg 1, .tok .rp]⟩),
  ("_H2FullmeshMacro", ⟨some (5, false), [.tok (.id "H2PP_REMOVE_PARENTHESES"), .tok .lp, .arg 0, .tok .rp, .tok .lp, .arg 3, .tok .comma, .arg 4,
    .tok .rp]⟩)]

/-- All of them. -/
def table : List (String × Macro) := written ++ uses ++ generated

/-- The definitions in a program that has more macros (`user`) than these. -/
def defs (user : String → Option Macro) (s : String) : Option Macro :=
  match table.lookup s with
  | some m => some m
  | none => user s

end H2.Macro
