import Verif.Source.Syntax

/-! The abstract syntax of `/repo/src/utils.rs` (written by `tools/gen_ast.py`; `Verif/Source/Parsed/Utils.lean` proves that it is that). -/

set_option autoImplicit false
set_option maxRecDepth 10000

namespace Langtag.Source.Ast

/-- `fn into_smallcase` -/
def into_smallcase : FnDef := ⟨"into_smallcase", [("c", (.path ["u8"] []))], (.path ["u8"] []),
  (.block []
    (.ite (.method (.path ["c"]) "is_ascii_uppercase" [])
      (.block []
        (.bin .add (.path ["c"]) (.lit (.int 32 ""))))
      (.block []
        (.path ["c"]))))⟩

/-- `fn case_insensitive_eq` -/
def case_insensitive_eq : FnDef := ⟨"case_insensitive_eq", [("a", (.ref false (.slice (.path ["u8"] [])))), ("b", (.ref false (.slice (.path ["u8"] []))))], (.path ["bool"] []),
  (.block []
    (.ite (.bin .eq (.method (.path ["a"]) "len" []) (.method (.path ["b"]) "len" []))
      (.block [
        .expr (.for "i" (.range (.lit (.int 0 "")) (.method (.path ["a"]) "len" []))
          (.block []
            (.ite (.bin .ne (.call (.path ["into_smallcase"]) [(.index (.path ["a"]) (.path ["i"]))]) (.call (.path ["into_smallcase"]) [(.index (.path ["b"]) (.path ["i"]))]))
              (.block [
                .expr (.return (.lit (.bool false)))]
                (.tuple []))
              (.tuple []))))]
        (.lit (.bool true)))
      (.block []
        (.lit (.bool false)))))⟩

/-- `fn case_insensitive_hash` -/
def case_insensitive_hash : FnDef := ⟨"case_insensitive_hash", [("bytes", (.ref false (.slice (.path ["u8"] [])))), ("hasher", (.ref true (.path ["H"] [])))], (.tuple []),
  (.block []
    (.for "b" (.path ["bytes"])
      (.block []
        (.method (.call (.path ["into_smallcase"]) [(.deref (.path ["b"]))]) "hash" [(.path ["hasher"])]))))⟩

/-- `fn case_insensitive_cmp` -/
def case_insensitive_cmp : FnDef := ⟨"case_insensitive_cmp", [("a", (.ref false (.slice (.path ["u8"] [])))), ("b", (.ref false (.slice (.path ["u8"] []))))], (.path ["Ordering"] []),
  (.block [
    .let (.path ["i"]) (.lit (.int 0 ""))]
    (.loop
      (.block []
        (.ite (.bin .le (.method (.path ["a"]) "len" []) (.path ["i"]))
          (.block [
            .expr (.ite (.bin .le (.method (.path ["b"]) "len" []) (.path ["i"]))
              (.block [
                .expr (.return (.path ["Ordering", "Equal"]))]
                (.tuple []))
              (.tuple [])),
            .expr (.return (.path ["Ordering", "Greater"]))]
            (.tuple []))
          (.ite (.bin .le (.method (.path ["b"]) "len" []) (.path ["i"]))
            (.block [
              .expr (.return (.path ["Ordering", "Less"]))]
              (.tuple []))
            (.block []
              (.match (.method (.call (.path ["into_smallcase"]) [(.index (.path ["a"]) (.path ["i"]))]) "cmp" [(.ref false (.call (.path ["into_smallcase"]) [(.index (.path ["b"]) (.path ["i"]))]))]) [
                .mk (.path ["Ordering", "Equal"]) (.opAssign .add (.path ["i"]) (.lit (.int 1 ""))),
                .mk (.path ["ord"]) (.return (.path ["ord"]))])))))))⟩

/-- The items of `/repo/src/utils.rs`. -/
def utilsRs : List Item := [
  .fn into_smallcase,
  .fn case_insensitive_eq,
  .fn case_insensitive_hash,
  .fn case_insensitive_cmp]

end Langtag.Source.Ast
