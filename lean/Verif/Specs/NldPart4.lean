import Verif.Specs.NldHead

/-! specs/nld.hsl, part 4, generated by tools/gen_specs.py. -/

set_option Elab.async false

namespace Verif.Specs.Nld

open Hsl

def lines49 : List String := [
"    \"qu\"                                                -> \"kw\"\n",
"    \"q\"                                                 -> \"k\"\n",
"    \"x\"                                                 -> \"ks\"\n",
"    \"ng\"                                                -> \"N\"\n",
"    \"nk\"                                                -> \"Nk\"\n",
"    \"dt$\"                                               -> \"t\"\n",
"    \"dt{<cs>}\"                                          -> \"t\"\n",
"    \"gh\"                                                -> \"g\"\n",
"    \"ph\"                                                -> \"p\"\n",
"    \"^th\"                                               -> \"t\"\n"]

theorem lines49_ok : Part false lang macros vars (str "rewrite") lines49 (str "rewrite") := by
  apply piece_of
  · dsimp only [lines49]; repeat (first | exact .nil | apply Spells.cons)
  · decide +kernel

def lines50 : List String := [
"    \"^kh\"                                               -> \"k\"\n",
"    \"h{<cs>}\"                                           -> \"\"\n",
"    \"h$\"                                                -> \"\"\n",
"    \"sj{@}\"                                             -> \"sJ\"\n",
"    \"sj\"                                                -> \"si\"\n",
"    \"sz$\"                                               -> \"s\"\n",
"    \"sz{<cs>}\"                                          -> \"s\"\n",
"    \"ts\"                                                -> \"C\"\n",
"    \"tz\"                                                -> \"C\"\n",
"    \"^v\"                                                -> \"f\"\n"]

theorem lines50_ok : Part false lang macros vars (str "rewrite") lines50 (str "rewrite") := by
  apply piece_of
  · dsimp only [lines50]; repeat (first | exact .nil | apply Spells.cons)
  · decide +kernel

def lines51 : List String := [
"    \"uw\"                                                -> \"uW\"\n",
"    \"v$\"                                                -> \"f\"\n",
"    \"^y{@}\"                                             -> \"j\"\n",
"    \"y\"                                                 -> \"i%\"\n",
"    \"z$\"                                                -> \"s\"\n",
"    \"bb\"                                                -> \"b\"\n",
"    \"dd\"                                                -> \"d\"\n",
"    \"ff\"                                                -> \"f\"\n",
"    \"fv\"                                                -> \"f\"\n",
"    \"gg\"                                                -> \"g\"\n"]

theorem lines51_ok : Part false lang macros vars (str "rewrite") lines51 (str "rewrite") := by
  apply piece_of
  · dsimp only [lines51]; repeat (first | exact .nil | apply Spells.cons)
  · decide +kernel

def lines52 : List String := [
"    \"hh\"                                                -> \"h\"\n",
"    \"kk\"                                                -> \"k\"\n",
"    \"ll\"                                                -> \"l\"\n",
"    \"mm\"                                                -> \"m\"\n",
"    \"nn\"                                                -> \"n\"\n",
"    \"pp\"                                                -> \"p\"\n",
"    \"rr\"                                                -> \"r\"\n",
"    \"ss\"                                                -> \"s\"\n",
"    \"tt\"                                                -> \"t\"\n",
"    \"mbt\"                                               -> \"mt\"\n"]

theorem lines52_ok : Part false lang macros vars (str "rewrite") lines52 (str "rewrite") := by
  apply piece_of
  · dsimp only [lines52]; repeat (first | exact .nil | apply Spells.cons)
  · decide +kernel

def lines53 : List String := [
"    \"mpt\"                                               -> \"mt\"\n",
"    \"b$\"                                                -> \"-p\"\n",
"    \"d$\"                                                -> \"-t\"\n",
"    \"ds{~@}\"                                            -> \"C\"\n",
"    \"ds$\"                                               -> \"C\"\n",
"    \"dz{~@}\"                                            -> \"C\"\n",
"    \"dz$\"                                               -> \"C\"\n",
"    \"^ie{<cs>}\"                                         -> \"i\"\n",
"    \"{<cs>}ie{<cs>}\"                                    -> \"i\"\n",
"    \"^oe{<cs>}\"                                         -> \"U\"\n"]

theorem lines53_ok : Part false lang macros vars (str "rewrite") lines53 (str "rewrite") := by
  apply piece_of
  · dsimp only [lines53]; repeat (first | exact .nil | apply Spells.cons)
  · decide +kernel

def lines54 : List String := [
"    \"{<cs>}oe{<cs>}\"                                    -> \"U\"\n",
"    \"b{@|<son>|j}\"                                      -> \"B\"\n",
"    \"{<son>}b\"                                          -> \"B\"\n",
"    \"{^<short>}b{<cs>}\"                                 -> \"P\"\n",
"    \"{<cs><short>}b{<cs>}\"                              -> \"P\"\n",
"    \"B\"                                                 -> \"b\"\n",
"    \"d{@|<son>|j}\"                                      -> \"D\"\n",
"    \"{<son>}d\"                                          -> \"D\"\n",
"    \"{^<short>}d{<cs>}\"                                 -> \"T\"\n",
"    \"{<cs><short>}d{<cs>}\"                              -> \"T\"\n"]

theorem lines54_ok : Part false lang macros vars (str "rewrite") lines54 (str "rewrite") := by
  apply piece_of
  · dsimp only [lines54]; repeat (first | exact .nil | apply Spells.cons)
  · decide +kernel

def lines55 : List String := [
"    \"D\"                                                 -> \"d\"\n",
"    \"p{@|<son>|j}\"                                      -> \"F\"\n",
"    \"{<son>}p\"                                          -> \"F\"\n",
"    \"{^<short>}p{<cs>}\"                                 -> \"P\"\n",
"    \"{<cs><short>}p{<cs>}\"                              -> \"P\"\n",
"    \"{^<short>}p$\"                                      -> \"P\"\n",
"    \"{<cs><short>}p$\"                                   -> \"P\"\n",
"    \"F\"                                                 -> \"p\"\n",
"    \"t{@|<son>|j}\"                                      -> \"F\"\n",
"    \"{<son>}t\"                                          -> \"F\"\n"]

theorem lines55_ok : Part false lang macros vars (str "rewrite") lines55 (str "rewrite") := by
  apply piece_of
  · dsimp only [lines55]; repeat (first | exact .nil | apply Spells.cons)
  · decide +kernel

def lines56 : List String := [
"    \"{^<short>}t{<cs>}\"                                 -> \"T\"\n",
"    \"{<cs><short>}t{<cs>}\"                              -> \"T\"\n",
"    \"{^<short>}t$\"                                      -> \"T\"\n",
"    \"{<cs><short>}t$\"                                   -> \"T\"\n",
"    \"F\"                                                 -> \"t\"\n",
"    \"k{@|<son>|j|v}\"                                    -> \"F\"\n",
"    \"{<son>}k\"                                          -> \"F\"\n",
"    \"{^<short>}k{<cs>}\"                                 -> \"K\"\n",
"    \"{<cs><short>}k{<cs>}\"                              -> \"K\"\n",
"    \"{^<short>}k$\"                                      -> \"K\"\n"]

theorem lines56_ok : Part false lang macros vars (str "rewrite") lines56 (str "rewrite") := by
  apply piece_of
  · dsimp only [lines56]; repeat (first | exact .nil | apply Spells.cons)
  · decide +kernel

def lines57 : List String := [
"    \"{<cs><short>}k$\"                                   -> \"K\"\n",
"    \"F\"                                                 -> \"k\"\n",
"    \"{~@}bj\"                                            -> \"bi%\"\n",
"    \"^bj\"                                               -> \"bi%\"\n",
"    \"{~@}dj\"                                            -> \"di%\"\n",
"    \"^dj\"                                               -> \"di%\"\n",
"    \"{~@}pj\"                                            -> \"pi%\"\n",
"    \"^pj\"                                               -> \"pi%\"\n",
"    \"{~@}tj\"                                            -> \"ti%\"\n",
"    \"^tj\"                                               -> \"ti%\"\n"]

theorem lines57_ok : Part false lang macros vars (str "rewrite") lines57 (str "rewrite") := by
  apply piece_of
  · dsimp only [lines57]; repeat (first | exact .nil | apply Spells.cons)
  · decide +kernel

def lines58 : List String := [
"    \"{~@}kj\"                                            -> \"ki%\"\n",
"    \"^kj\"                                               -> \"ki%\"\n",
"    \"{~@}rj\"                                            -> \"ri%\"\n",
"    \"^rj\"                                               -> \"ri%\"\n",
"    \"{b|d|p|t|k|r}j\"                                    -> \"Yj\"\n",
"    \"{@}ie\"                                             -> \"i%e\"\n",
"    \"w\"                                                 -> \"v\"\n",
"    \"ae\"                                                -> \"aa\"\n",
"    \"aa\"                                                -> \"a\"\n",
"    \"auW\"                                               -> \"aU%\"\n"]

theorem lines58_ok : Part false lang macros vars (str "rewrite") lines58 (str "rewrite") := by
  apply piece_of
  · dsimp only [lines58]; repeat (first | exact .nil | apply Spells.cons)
  · decide +kernel

def lines59 : List String := [
"    \"au\"                                                -> \"aU%\"\n",
"    \"ouW\"                                               -> \"aU%\"\n",
"    \"ou\"                                                -> \"aU%\"\n",
"    \"{@}iji\"                                            -> \"i\"\n",
"    \"{@}ij{@}\"                                          -> \"i%j\"\n",
"    \"{@}ij\"                                             -> \"i%\"\n",
"    \"ij\"                                                -> \"ei\"\n",
"    \"eeuW\"                                              -> \"eiU%\"\n",
"    \"ieuW\"                                              -> \"iU%\"\n",
"    \"euW\"                                               -> \"e-u%\"\n"]

theorem lines59_ok : Part false lang macros vars (str "rewrite") lines59 (str "rewrite") := by
  apply piece_of
  · dsimp only [lines59]; repeat (first | exact .nil | apply Spells.cons)
  · decide +kernel

def lines60 : List String := [
"    \"iee\"                                               -> \"i%ee\"\n",
"    \"ee\"                                                -> \"ei\"\n",
"    \"oo\"                                                -> \"o\"\n",
"    \"ui\"                                                -> \"au%\"\n",
"    \"uy\"                                                -> \"au%\"\n",
"    \"eu\"                                                -> \"O%\"\n",
"    \"uee\"                                               -> \"u%ee\"\n",
"    \"ue\"                                                -> \"uu\"\n",
"    \"uW\"                                                -> \"uu%\"\n",
"    \"uu\"                                                -> \"u\"\n"]

theorem lines60_ok : Part false lang macros vars (str "rewrite") lines60 (str "rewrite") := by
  apply piece_of
  · dsimp only [lines60]; repeat (first | exact .nil | apply Spells.cons)
  · decide +kernel

def lines61 : List String := [
"    \"i%i\"                                               -> \"i\"\n",
"    \"ie\"                                                -> \"i\"\n",
"    \"ii\"                                                -> \"i\"\n",
"    \"oe\"                                                -> \"U\"\n",
"    \"-\"                                                 -> \"\"\n",
"    \"e$\"                                                -> \"Q\"\n",
"    \"^e{<cs>$}\"                                         -> \"E\"\n",
"    \"{^<cs>}e{<cs>$}\"                                   -> \"E\"\n",
"    \"{^<cs><cs>}e{<cs>$}\"                               -> \"E\"\n",
"    \"{^<cs><cs><cs>}e{<cs>$}\"                           -> \"E\"\n"]

theorem lines61_ok : Part false lang macros vars (str "rewrite") lines61 (str "rewrite") := by
  apply piece_of
  · dsimp only [lines61]; repeat (first | exact .nil | apply Spells.cons)
  · decide +kernel

def lines62 : List String := [
"    \"^e{<cs><cs>$}\"                                     -> \"E\"\n",
"    \"{^<cs>}e{<cs><cs>$}\"                               -> \"E\"\n",
"    \"{^<cs><cs>}e{<cs><cs>$}\"                           -> \"E\"\n",
"    \"{^<cs><cs><cs>}e{<cs><cs>$}\"                       -> \"E\"\n",
"    \"^e{<cs><cs><cs>$}\"                                 -> \"E\"\n",
"    \"{^<cs>}e{<cs><cs><cs>$}\"                           -> \"E\"\n",
"    \"{^<cs><cs>}e{<cs><cs><cs>$}\"                       -> \"E\"\n",
"    \"{^<cs><cs><cs>}e{<cs><cs><cs>$}\"                   -> \"E\"\n",
"    \"^e{<cs><cs><cs><cs>$}\"                             -> \"E\"\n",
"    \"{^<cs>}e{<cs><cs><cs><cs>$}\"                       -> \"E\"\n"]

theorem lines62_ok : Part false lang macros vars (str "rewrite") lines62 (str "rewrite") := by
  apply piece_of
  · dsimp only [lines62]; repeat (first | exact .nil | apply Spells.cons)
  · decide +kernel

def lines63 : List String := [
"    \"{^<cs><cs>}e{<cs><cs><cs><cs>$}\"                   -> \"E\"\n",
"    \"{^<cs><cs><cs>}e{<cs><cs><cs><cs>$}\"               -> \"E\"\n",
"    \"{<cs>}e{<cs>$}\"                                    -> \"Q\"\n",
"    \"{<cs>}e{<cs><cs>$}\"                                -> \"Q\"\n",
"    \"{<cs>}e{<cs><cs><cs>$}\"                            -> \"Q\"\n",
"    \"{<cs>}e{<cs><cs><cs><cs>$}\"                        -> \"Q\"\n",
"    \"E\"                                                 -> \"e\"\n",
"    \"P\"                                                 -> \"p,\"\n",
"    \"T\"                                                 -> \"t,\"\n",
"    \"K\"                                                 -> \"k,\"\n"]

theorem lines63_ok : Part false lang macros vars (str "rewrite") lines63 (str "rewrite") := by
  apply piece_of
  · dsimp only [lines63]; repeat (first | exact .nil | apply Spells.cons)
  · decide +kernel

def lines64 : List String := [
"    \"j{@}\"                                              -> \"J\"\n",
"    \"j\"                                                 -> \"i\"\n",
"    \"{C|z}J\"                                            -> \"\"\n",
"    \"^l\"                                                -> \"l;\"\n",
"    \"^m\"                                                -> \"m;\"\n",
"    \"^n\"                                                -> \"n;\"\n",
"    \"l$\"                                                -> \"l,\"\n",
"    \"m$\"                                                -> \"m,\"\n",
"    \"n$\"                                                -> \"n,\"\n",
"    \"l{@|m,|n,|N}\"                                      -> \"l;\"\n"]

theorem lines64_ok : Part false lang macros vars (str "rewrite") lines64 (str "rewrite") := by
  apply piece_of
  · dsimp only [lines64]; repeat (first | exact .nil | apply Spells.cons)
  · decide +kernel

end Verif.Specs.Nld
