import Verif.Model.PatternText
/-!
# Syntax trees of the patterns (generated by tools/GenAst.lean)

Each `compile_*` theorem is checked by the kernel: the tree is what the compiler model produces from
the verbatim pattern string of `PatternText.lean`.
-/
namespace Chrono.Ast

/-- tree of `Pat.casualTime` -/
def casualTime : Re :=
 (.seq (.cap 1 (.wb false))
 (.seq (.cap 2 (.seq (.alt (.cap 3 (.seq (.one (.ch true 116))
 (.seq (.one (.ch true 104))
 (.seq (.one (.ch true 105))
 (.one (.ch true 115))))))
 .eps)
 (.seq (.star true (.one (.set true false [.cls .space false])))
 (.cap 4 (.alt (.alt (.alt (.alt (.seq (.one (.ch true 109))
 (.seq (.one (.ch true 111))
 (.seq (.one (.ch true 114))
 (.seq (.one (.ch true 110))
 (.seq (.one (.ch true 105))
 (.seq (.one (.ch true 110))
 (.one (.ch true 103))))))))
 (.seq (.one (.ch true 97))
 (.seq (.one (.ch true 102))
 (.seq (.one (.ch true 116))
 (.seq (.one (.ch true 101))
 (.seq (.one (.ch true 114))
 (.seq (.one (.ch true 110))
 (.seq (.one (.ch true 111))
 (.seq (.one (.ch true 111))
 (.one (.ch true 110)))))))))))
 (.seq (.one (.ch true 101))
 (.seq (.one (.ch true 118))
 (.seq (.one (.ch true 101))
 (.seq (.one (.ch true 110))
 (.seq (.one (.ch true 105))
 (.seq (.one (.ch true 110))
 (.one (.ch true 103)))))))))
 (.seq (.one (.ch true 110))
 (.seq (.one (.ch true 111))
 (.seq (.one (.ch true 111))
 (.one (.ch true 110))))))
 (.seq (.one (.ch true 110))
 (.seq (.one (.ch true 105))
 (.seq (.one (.ch true 103))
 (.seq (.one (.ch true 104))
 (.one (.ch true 116)))))))))))
 (.cap 5 (.wb false))))

/-- tree of `Pat.deadline` -/
def deadline : Re :=
 (.seq (.cap 1 (.wb false))
 (.seq (.cap 2 (.alt (.seq (.one (.ch true 119))
 (.seq (.one (.ch true 105))
 (.seq (.one (.ch true 116))
 (.seq (.one (.ch true 104))
 (.seq (.one (.ch true 105))
 (.one (.ch true 110)))))))
 (.seq (.one (.ch true 105))
 (.one (.ch true 110)))))
 (.seq (.seq (.one (.set true false [.cls .space false]))
 (.star true (.one (.set true false [.cls .space false]))))
 (.seq (.cap 3 (.alt (.alt (.alt (.alt (.alt (.alt (.alt (.alt (.alt (.alt (.alt (.alt (.alt (.alt (.seq (.one (.ch true 111))
 (.seq (.one (.ch true 110))
 (.one (.ch true 101))))
 (.seq (.one (.ch true 116))
 (.seq (.one (.ch true 119))
 (.one (.ch true 111)))))
 (.seq (.one (.ch true 116))
 (.seq (.one (.ch true 104))
 (.seq (.one (.ch true 114))
 (.seq (.one (.ch true 101))
 (.one (.ch true 101)))))))
 (.seq (.one (.ch true 102))
 (.seq (.one (.ch true 111))
 (.seq (.one (.ch true 117))
 (.one (.ch true 114))))))
 (.seq (.one (.ch true 102))
 (.seq (.one (.ch true 105))
 (.seq (.one (.ch true 118))
 (.one (.ch true 101))))))
 (.seq (.one (.ch true 115))
 (.seq (.one (.ch true 105))
 (.one (.ch true 120)))))
 (.seq (.one (.ch true 115))
 (.seq (.one (.ch true 101))
 (.seq (.one (.ch true 118))
 (.seq (.one (.ch true 101))
 (.one (.ch true 110)))))))
 (.seq (.one (.ch true 101))
 (.seq (.one (.ch true 105))
 (.seq (.one (.ch true 103))
 (.seq (.one (.ch true 104))
 (.one (.ch true 116)))))))
 (.seq (.one (.ch true 110))
 (.seq (.one (.ch true 105))
 (.seq (.one (.ch true 110))
 (.one (.ch true 101))))))
 (.seq (.one (.ch true 116))
 (.seq (.one (.ch true 101))
 (.one (.ch true 110)))))
 (.seq (.one (.ch true 101))
 (.seq (.one (.ch true 108))
 (.seq (.one (.ch true 101))
 (.seq (.one (.ch true 118))
 (.seq (.one (.ch true 101))
 (.one (.ch true 110))))))))
 (.seq (.one (.ch true 116))
 (.seq (.one (.ch true 119))
 (.seq (.one (.ch true 101))
 (.seq (.one (.ch true 108))
 (.seq (.one (.ch true 118))
 (.one (.ch true 101))))))))
 (.seq (.one (.set true false [.range 48 57]))
 (.star true (.one (.set true false [.range 48 57])))))
 (.seq (.one (.ch true 97))
 (.seq (.alt (.one (.ch true 110))
 .eps)
 (.alt (.seq (.seq (.one (.set true false [.cls .space false]))
 (.star true (.one (.set true false [.cls .space false]))))
 (.seq (.one (.ch true 102))
 (.seq (.one (.ch true 101))
 (.one (.ch true 119)))))
 .eps))))
 (.seq (.one (.ch true 104))
 (.seq (.one (.ch true 97))
 (.seq (.one (.ch true 108))
 (.seq (.one (.ch true 102))
 (.alt (.seq (.seq (.one (.set true false [.cls .space false]))
 (.star true (.one (.set true false [.cls .space false]))))
 (.seq (.one (.ch true 97))
 (.alt (.one (.ch true 110))
 .eps)))
 .eps)))))))
 (.seq (.seq (.one (.set true false [.cls .space false]))
 (.star true (.one (.set true false [.cls .space false]))))
 (.seq (.cap 4 (.alt (.alt (.alt (.alt (.alt (.alt (.seq (.one (.ch true 115))
 (.seq (.one (.ch true 101))
 (.seq (.one (.ch true 99))
 (.seq (.alt (.seq (.one (.ch true 111))
 (.seq (.one (.ch true 110))
 (.one (.ch true 100))))
 .eps)
 (.alt (.one (.ch true 115))
 .eps)))))
 (.seq (.one (.ch true 109))
 (.seq (.one (.ch true 105))
 (.seq (.one (.ch true 110))
 (.seq (.alt (.seq (.one (.ch true 117))
 (.seq (.one (.ch true 116))
 (.one (.ch true 101))))
 .eps)
 (.alt (.one (.ch true 115))
 .eps))))))
 (.seq (.one (.ch true 104))
 (.seq (.alt (.seq (.one (.ch true 111))
 (.one (.ch true 117)))
 .eps)
 (.seq (.one (.ch true 114))
 (.alt (.one (.ch true 115))
 .eps)))))
 (.seq (.one (.ch true 100))
 (.seq (.one (.ch true 97))
 (.seq (.one (.ch true 121))
 (.alt (.one (.ch true 115))
 .eps)))))
 (.seq (.one (.ch true 119))
 (.seq (.alt (.seq (.one (.ch true 101))
 (.one (.ch true 101)))
 .eps)
 (.seq (.one (.ch true 107))
 (.alt (.one (.ch true 115))
 .eps)))))
 (.seq (.one (.ch true 109))
 (.seq (.one (.ch true 111))
 (.seq (.one (.ch true 110))
 (.seq (.one (.ch true 116))
 (.seq (.one (.ch true 104))
 (.alt (.one (.ch true 115))
 .eps)))))))
 (.seq (.one (.ch true 121))
 (.seq (.alt (.seq (.one (.ch true 101))
 (.one (.ch true 97)))
 .eps)
 (.seq (.one (.ch true 114))
 (.alt (.one (.ch true 115))
 .eps))))))
 (.cap 5 (.wb false))))))))

/-- tree of `Pat.casualDate` -/
def casualDate : Re :=
 (.seq (.cap 1 (.wb false))
 (.seq (.cap 2 (.alt (.alt (.alt (.alt (.alt (.alt (.alt (.seq (.one (.ch true 110))
 (.seq (.one (.ch true 111))
 (.one (.ch true 119))))
 (.seq (.one (.ch true 116))
 (.seq (.one (.ch true 111))
 (.seq (.one (.ch true 100))
 (.seq (.one (.ch true 97))
 (.one (.ch true 121)))))))
 (.seq (.one (.ch true 116))
 (.seq (.one (.ch true 111))
 (.seq (.one (.ch true 110))
 (.seq (.one (.ch true 105))
 (.seq (.one (.ch true 103))
 (.seq (.one (.ch true 104))
 (.one (.ch true 116)))))))))
 (.seq (.one (.ch true 108))
 (.seq (.one (.ch true 97))
 (.seq (.one (.ch true 115))
 (.seq (.one (.ch true 116))
 (.seq (.star true (.one (.set true false [.cls .space false])))
 (.seq (.one (.ch true 110))
 (.seq (.one (.ch true 105))
 (.seq (.one (.ch true 103))
 (.seq (.one (.ch true 104))
 (.one (.ch true 116))))))))))))
 (.seq (.alt (.alt (.seq (.one (.ch true 116))
 (.seq (.one (.ch true 111))
 (.seq (.one (.ch true 109))
 (.seq (.one (.ch true 111))
 (.seq (.one (.ch true 114))
 (.seq (.one (.ch true 114))
 (.seq (.one (.ch true 111))
 (.one (.ch true 119)))))))))
 (.seq (.one (.ch true 116))
 (.seq (.one (.ch true 109))
 (.one (.ch true 114)))))
 (.seq (.one (.ch true 121))
 (.seq (.one (.ch true 101))
 (.seq (.one (.ch true 115))
 (.seq (.one (.ch true 116))
 (.seq (.one (.ch true 101))
 (.seq (.one (.ch true 114))
 (.seq (.one (.ch true 100))
 (.seq (.one (.ch true 97))
 (.one (.ch true 121)))))))))))
 (.star true (.one (.set true false [.cls .space false])))))
 (.seq (.one (.ch true 116))
 (.seq (.one (.ch true 111))
 (.seq (.one (.ch true 109))
 (.seq (.one (.ch true 111))
 (.seq (.one (.ch true 114))
 (.seq (.one (.ch true 114))
 (.seq (.one (.ch true 111))
 (.one (.ch true 119))))))))))
 (.seq (.one (.ch true 116))
 (.seq (.one (.ch true 109))
 (.one (.ch true 114)))))
 (.seq (.one (.ch true 121))
 (.seq (.one (.ch true 101))
 (.seq (.one (.ch true 115))
 (.seq (.one (.ch true 116))
 (.seq (.one (.ch true 101))
 (.seq (.one (.ch true 114))
 (.seq (.one (.ch true 100))
 (.seq (.one (.ch true 97))
 (.one (.ch true 121))))))))))))
 (.cap 3 (.wb false))))

/-- tree of `Pat.middleEndian` -/
def middleEndian : Re :=
 (.seq (.cap 1 (.wb false))
 (.seq (.alt (.seq (.alt (.seq (.one (.ch true 111))
 (.seq (.one (.ch true 110))
 (.star false (.one (.set true false [.cls .space false])))))
 .eps)
 (.seq (.cap 2 (.alt (.alt (.alt (.alt (.alt (.alt (.seq (.one (.ch true 83))
 (.seq (.one (.ch true 117))
 (.seq (.one (.ch true 110))
 (.alt (.seq (.one (.ch true 100))
 (.seq (.one (.ch true 97))
 (.one (.ch true 121))))
 .eps))))
 (.seq (.one (.ch true 77))
 (.seq (.one (.ch true 111))
 (.seq (.one (.ch true 110))
 (.alt (.seq (.one (.ch true 100))
 (.seq (.one (.ch true 97))
 (.one (.ch true 121))))
 .eps)))))
 (.seq (.one (.ch true 84))
 (.seq (.one (.ch true 117))
 (.seq (.one (.ch true 101))
 (.alt (.seq (.one (.ch true 115))
 (.alt (.seq (.one (.ch true 100))
 (.seq (.one (.ch true 97))
 (.one (.ch true 121))))
 .eps))
 .eps)))))
 (.seq (.one (.ch true 87))
 (.seq (.one (.ch true 101))
 (.seq (.one (.ch true 100))
 (.alt (.seq (.one (.ch true 110))
 (.seq (.one (.ch true 101))
 (.seq (.one (.ch true 115))
 (.seq (.one (.ch true 100))
 (.seq (.one (.ch true 97))
 (.one (.ch true 121)))))))
 .eps)))))
 (.seq (.one (.ch true 84))
 (.seq (.one (.ch true 104))
 (.seq (.one (.ch true 117))
 (.alt (.seq (.one (.ch true 114))
 (.alt (.seq (.one (.ch true 115))
 (.alt (.seq (.one (.ch true 100))
 (.seq (.one (.ch true 97))
 (.one (.ch true 121))))
 .eps))
 .eps))
 .eps)))))
 (.seq (.one (.ch true 70))
 (.seq (.one (.ch true 114))
 (.seq (.one (.ch true 105))
 (.alt (.seq (.one (.ch true 100))
 (.seq (.one (.ch true 97))
 (.one (.ch true 121))))
 .eps)))))
 (.seq (.one (.ch true 83))
 (.seq (.one (.ch true 97))
 (.seq (.one (.ch true 116))
 (.alt (.seq (.one (.ch true 117))
 (.seq (.one (.ch true 114))
 (.seq (.one (.ch true 100))
 (.seq (.one (.ch true 97))
 (.one (.ch true 121))))))
 .eps))))))
 (.seq (.star true (.one (.set true false [.cls .space false])))
 (.seq (.alt (.one (.ch true 44))
 .eps)
 (.star true (.one (.set true false [.cls .space false])))))))
 .eps)
 (.seq (.cap 3 (.alt (.alt (.alt (.alt (.alt (.alt (.alt (.alt (.alt (.alt (.alt (.seq (.one (.ch true 74))
 (.seq (.one (.ch true 97))
 (.seq (.one (.ch true 110))
 (.alt (.alt (.seq (.one (.ch true 117))
 (.seq (.one (.ch true 97))
 (.seq (.one (.ch true 114))
 (.one (.ch true 121)))))
 (.one (.ch true 46)))
 .eps))))
 (.seq (.one (.ch true 70))
 (.seq (.one (.ch true 101))
 (.seq (.one (.ch true 98))
 (.alt (.alt (.seq (.one (.ch true 114))
 (.seq (.one (.ch true 117))
 (.seq (.one (.ch true 97))
 (.seq (.one (.ch true 114))
 (.one (.ch true 121))))))
 (.one (.ch true 46)))
 .eps)))))
 (.seq (.one (.ch true 77))
 (.seq (.one (.ch true 97))
 (.seq (.one (.ch true 114))
 (.alt (.alt (.seq (.one (.ch true 99))
 (.one (.ch true 104)))
 (.one (.ch true 46)))
 .eps)))))
 (.seq (.one (.ch true 65))
 (.seq (.one (.ch true 112))
 (.seq (.one (.ch true 114))
 (.alt (.alt (.seq (.one (.ch true 105))
 (.one (.ch true 108)))
 (.one (.ch true 46)))
 .eps)))))
 (.seq (.one (.ch true 77))
 (.seq (.one (.ch true 97))
 (.seq (.one (.ch true 121))
 (.alt (.one (.ch true 46))
 .eps)))))
 (.seq (.one (.ch true 74))
 (.seq (.one (.ch true 117))
 (.seq (.one (.ch true 110))
 (.alt (.alt (.one (.ch true 101))
 (.one (.ch true 46)))
 .eps)))))
 (.seq (.one (.ch true 74))
 (.seq (.one (.ch true 117))
 (.seq (.one (.ch true 108))
 (.alt (.alt (.one (.ch true 46))
 (.one (.ch true 121)))
 .eps)))))
 (.seq (.one (.ch true 65))
 (.seq (.one (.ch true 117))
 (.seq (.one (.ch true 103))
 (.alt (.alt (.seq (.one (.ch true 117))
 (.seq (.one (.ch true 115))
 (.one (.ch true 116))))
 (.one (.ch true 46)))
 .eps)))))
 (.seq (.one (.ch true 83))
 (.seq (.one (.ch true 101))
 (.seq (.one (.ch true 112))
 (.alt (.alt (.one (.ch true 46))
 (.seq (.one (.ch true 116))
 (.alt (.alt (.one (.ch true 46))
 (.seq (.one (.ch true 101))
 (.seq (.one (.ch true 109))
 (.seq (.one (.ch true 98))
 (.seq (.one (.ch true 101))
 (.one (.ch true 114)))))))
 .eps)))
 .eps)))))
 (.seq (.one (.ch true 79))
 (.seq (.one (.ch true 99))
 (.seq (.one (.ch true 116))
 (.alt (.alt (.seq (.one (.ch true 111))
 (.seq (.one (.ch true 98))
 (.seq (.one (.ch true 101))
 (.one (.ch true 114)))))
 (.one (.ch true 46)))
 .eps)))))
 (.seq (.one (.ch true 78))
 (.seq (.one (.ch true 111))
 (.seq (.one (.ch true 118))
 (.alt (.alt (.one (.ch true 46))
 (.seq (.one (.ch true 101))
 (.seq (.one (.ch true 109))
 (.seq (.one (.ch true 98))
 (.seq (.one (.ch true 101))
 (.one (.ch true 114)))))))
 .eps)))))
 (.seq (.one (.ch true 68))
 (.seq (.one (.ch true 101))
 (.seq (.one (.ch true 99))
 (.alt (.alt (.seq (.one (.ch true 101))
 (.seq (.one (.ch true 109))
 (.seq (.one (.ch true 98))
 (.seq (.one (.ch true 101))
 (.one (.ch true 114))))))
 (.one (.ch true 46)))
 .eps))))))
 (.seq (.alt (.alt (.one (.ch true 45))
 (.one (.ch true 47)))
 (.seq (.star true (.one (.set true false [.cls .space false])))
 (.seq (.alt (.one (.ch true 44))
 .eps)
 (.star true (.one (.set true false [.cls .space false]))))))
 (.seq (.cap 4 (.alt (.alt (.alt (.alt (.alt (.alt (.alt (.alt (.alt (.alt (.alt (.alt (.alt (.alt (.alt (.alt (.alt (.alt (.alt (.alt (.alt (.alt (.alt (.alt (.alt (.alt (.alt (.alt (.alt (.alt (.alt (.seq (.cap 5 (.seq (.one (.set true false [.range 48 57]))
 (.alt (.one (.set true false [.range 48 57]))
 .eps)))
 (.alt (.alt (.alt (.alt (.seq (.one (.ch true 115))
 (.one (.ch true 116)))
 (.seq (.one (.ch true 110))
 (.one (.ch true 100))))
 (.seq (.one (.ch true 114))
 (.one (.ch true 100))))
 (.seq (.one (.ch true 116))
 (.one (.ch true 104))))
 .eps))
 (.seq (.one (.ch true 102))
 (.seq (.one (.ch true 105))
 (.seq (.one (.ch true 114))
 (.seq (.one (.ch true 115))
 (.one (.ch true 116)))))))
 (.seq (.one (.ch true 115))
 (.seq (.one (.ch true 101))
 (.seq (.one (.ch true 99))
 (.seq (.one (.ch true 111))
 (.seq (.one (.ch true 110))
 (.one (.ch true 100))))))))
 (.seq (.one (.ch true 116))
 (.seq (.one (.ch true 104))
 (.seq (.one (.ch true 105))
 (.seq (.one (.ch true 114))
 (.one (.ch true 100)))))))
 (.seq (.one (.ch true 102))
 (.seq (.one (.ch true 111))
 (.seq (.one (.ch true 117))
 (.seq (.one (.ch true 114))
 (.seq (.one (.ch true 116))
 (.one (.ch true 104))))))))
 (.seq (.one (.ch true 102))
 (.seq (.one (.ch true 105))
 (.seq (.one (.ch true 102))
 (.seq (.one (.ch true 116))
 (.one (.ch true 104)))))))
 (.seq (.one (.ch true 115))
 (.seq (.one (.ch true 105))
 (.seq (.one (.ch true 120))
 (.seq (.one (.ch true 116))
 (.one (.ch true 104)))))))
 (.seq (.one (.ch true 115))
 (.seq (.one (.ch true 101))
 (.seq (.one (.ch true 118))
 (.seq (.one (.ch true 101))
 (.seq (.one (.ch true 110))
 (.seq (.one (.ch true 116))
 (.one (.ch true 104)))))))))
 (.seq (.one (.ch true 101))
 (.seq (.one (.ch true 105))
 (.seq (.one (.ch true 103))
 (.seq (.one (.ch true 104))
 (.seq (.one (.ch true 116))
 (.one (.ch true 104))))))))
 (.seq (.one (.ch true 110))
 (.seq (.one (.ch true 105))
 (.seq (.one (.ch true 110))
 (.seq (.one (.ch true 116))
 (.one (.ch true 104)))))))
 (.seq (.one (.ch true 116))
 (.seq (.one (.ch true 101))
 (.seq (.one (.ch true 110))
 (.seq (.one (.ch true 116))
 (.one (.ch true 104)))))))
 (.seq (.one (.ch true 101))
 (.seq (.one (.ch true 108))
 (.seq (.one (.ch true 101))
 (.seq (.one (.ch true 118))
 (.seq (.one (.ch true 101))
 (.seq (.one (.ch true 110))
 (.seq (.one (.ch true 116))
 (.one (.ch true 104))))))))))
 (.seq (.one (.ch true 116))
 (.seq (.one (.ch true 119))
 (.seq (.one (.ch true 101))
 (.seq (.one (.ch true 108))
 (.seq (.one (.ch true 102))
 (.seq (.one (.ch true 116))
 (.one (.ch true 104)))))))))
 (.seq (.one (.ch true 116))
 (.seq (.one (.ch true 104))
 (.seq (.one (.ch true 105))
 (.seq (.one (.ch true 114))
 (.seq (.one (.ch true 116))
 (.seq (.one (.ch true 101))
 (.seq (.one (.ch true 101))
 (.seq (.one (.ch true 110))
 (.seq (.one (.ch true 116))
 (.one (.ch true 104))))))))))))
 (.seq (.one (.ch true 102))
 (.seq (.one (.ch true 111))
 (.seq (.one (.ch true 117))
 (.seq (.one (.ch true 114))
 (.seq (.one (.ch true 116))
 (.seq (.one (.ch true 101))
 (.seq (.one (.ch true 101))
 (.seq (.one (.ch true 110))
 (.seq (.one (.ch true 116))
 (.one (.ch true 104))))))))))))
 (.seq (.one (.ch true 102))
 (.seq (.one (.ch true 105))
 (.seq (.one (.ch true 102))
 (.seq (.one (.ch true 116))
 (.seq (.one (.ch true 101))
 (.seq (.one (.ch true 101))
 (.seq (.one (.ch true 110))
 (.seq (.one (.ch true 116))
 (.one (.ch true 104)))))))))))
 (.seq (.one (.ch true 115))
 (.seq (.one (.ch true 105))
 (.seq (.one (.ch true 120))
 (.seq (.one (.ch true 116))
 (.seq (.one (.ch true 101))
 (.seq (.one (.ch true 101))
 (.seq (.one (.ch true 110))
 (.seq (.one (.ch true 116))
 (.one (.ch true 104)))))))))))
 (.seq (.one (.ch true 115))
 (.seq (.one (.ch true 101))
 (.seq (.one (.ch true 118))
 (.seq (.one (.ch true 101))
 (.seq (.one (.ch true 110))
 (.seq (.one (.ch true 116))
 (.seq (.one (.ch true 101))
 (.seq (.one (.ch true 101))
 (.seq (.one (.ch true 110))
 (.seq (.one (.ch true 116))
 (.one (.ch true 104)))))))))))))
 (.seq (.one (.ch true 101))
 (.seq (.one (.ch true 105))
 (.seq (.one (.ch true 103))
 (.seq (.one (.ch true 104))
 (.seq (.one (.ch true 116))
 (.seq (.one (.ch true 101))
 (.seq (.one (.ch true 101))
 (.seq (.one (.ch true 110))
 (.seq (.one (.ch true 116))
 (.one (.ch true 104))))))))))))
 (.seq (.one (.ch true 110))
 (.seq (.one (.ch true 105))
 (.seq (.one (.ch true 110))
 (.seq (.one (.ch true 101))
 (.seq (.one (.ch true 116))
 (.seq (.one (.ch true 101))
 (.seq (.one (.ch true 101))
 (.seq (.one (.ch true 110))
 (.seq (.one (.ch true 116))
 (.one (.ch true 104))))))))))))
 (.seq (.one (.ch true 116))
 (.seq (.one (.ch true 119))
 (.seq (.one (.ch true 101))
 (.seq (.one (.ch true 110))
 (.seq (.one (.ch true 116))
 (.seq (.one (.ch true 105))
 (.seq (.one (.ch true 101))
 (.seq (.one (.ch true 116))
 (.one (.ch true 104)))))))))))
 (.seq (.one (.ch true 116))
 (.seq (.one (.ch true 119))
 (.seq (.one (.ch true 101))
 (.seq (.one (.ch true 110))
 (.seq (.one (.ch true 116))
 (.seq (.one (.ch true 121))
 (.seq (.one (.set true false [.one 32, .one 45]))
 (.seq (.one (.ch true 102))
 (.seq (.one (.ch true 105))
 (.seq (.one (.ch true 114))
 (.seq (.one (.ch true 115))
 (.one (.ch true 116))))))))))))))
 (.seq (.one (.ch true 116))
 (.seq (.one (.ch true 119))
 (.seq (.one (.ch true 101))
 (.seq (.one (.ch true 110))
 (.seq (.one (.ch true 116))
 (.seq (.one (.ch true 121))
 (.seq (.one (.set true false [.one 32, .one 45]))
 (.seq (.one (.ch true 115))
 (.seq (.one (.ch true 101))
 (.seq (.one (.ch true 99))
 (.seq (.one (.ch true 111))
 (.seq (.one (.ch true 110))
 (.one (.ch true 100)))))))))))))))
 (.seq (.one (.ch true 116))
 (.seq (.one (.ch true 119))
 (.seq (.one (.ch true 101))
 (.seq (.one (.ch true 110))
 (.seq (.one (.ch true 116))
 (.seq (.one (.ch true 121))
 (.seq (.one (.set true false [.one 32, .one 45]))
 (.seq (.one (.ch true 116))
 (.seq (.one (.ch true 104))
 (.seq (.one (.ch true 105))
 (.seq (.one (.ch true 114))
 (.one (.ch true 100))))))))))))))
 (.seq (.one (.ch true 116))
 (.seq (.one (.ch true 119))
 (.seq (.one (.ch true 101))
 (.seq (.one (.ch true 110))
 (.seq (.one (.ch true 116))
 (.seq (.one (.ch true 121))
 (.seq (.one (.set true false [.one 32, .one 45]))
 (.seq (.one (.ch true 102))
 (.seq (.one (.ch true 111))
 (.seq (.one (.ch true 117))
 (.seq (.one (.ch true 114))
 (.seq (.one (.ch true 116))
 (.one (.ch true 104)))))))))))))))
 (.seq (.one (.ch true 116))
 (.seq (.one (.ch true 119))
 (.seq (.one (.ch true 101))
 (.seq (.one (.ch true 110))
 (.seq (.one (.ch true 116))
 (.seq (.one (.ch true 121))
 (.seq (.one (.set true false [.one 32, .one 45]))
 (.seq (.one (.ch true 102))
 (.seq (.one (.ch true 105))
 (.seq (.one (.ch true 102))
 (.seq (.one (.ch true 116))
 (.one (.ch true 104))))))))))))))
 (.seq (.one (.ch true 116))
 (.seq (.one (.ch true 119))
 (.seq (.one (.ch true 101))
 (.seq (.one (.ch true 110))
 (.seq (.one (.ch true 116))
 (.seq (.one (.ch true 121))
 (.seq (.one (.set true false [.one 32, .one 45]))
 (.seq (.one (.ch true 115))
 (.seq (.one (.ch true 105))
 (.seq (.one (.ch true 120))
 (.seq (.one (.ch true 116))
 (.one (.ch true 104))))))))))))))
 (.seq (.one (.ch true 116))
 (.seq (.one (.ch true 119))
 (.seq (.one (.ch true 101))
 (.seq (.one (.ch true 110))
 (.seq (.one (.ch true 116))
 (.seq (.one (.ch true 121))
 (.seq (.one (.set true false [.one 32, .one 45]))
 (.seq (.one (.ch true 115))
 (.seq (.one (.ch true 101))
 (.seq (.one (.ch true 118))
 (.seq (.one (.ch true 101))
 (.seq (.one (.ch true 110))
 (.seq (.one (.ch true 116))
 (.one (.ch true 104))))))))))))))))
 (.seq (.one (.ch true 116))
 (.seq (.one (.ch true 119))
 (.seq (.one (.ch true 101))
 (.seq (.one (.ch true 110))
 (.seq (.one (.ch true 116))
 (.seq (.one (.ch true 121))
 (.seq (.one (.set true false [.one 32, .one 45]))
 (.seq (.one (.ch true 101))
 (.seq (.one (.ch true 105))
 (.seq (.one (.ch true 103))
 (.seq (.one (.ch true 104))
 (.seq (.one (.ch true 116))
 (.one (.ch true 104)))))))))))))))
 (.seq (.one (.ch true 116))
 (.seq (.one (.ch true 119))
 (.seq (.one (.ch true 101))
 (.seq (.one (.ch true 110))
 (.seq (.one (.ch true 116))
 (.seq (.one (.ch true 121))
 (.seq (.one (.set true false [.one 32, .one 45]))
 (.seq (.one (.ch true 110))
 (.seq (.one (.ch true 105))
 (.seq (.one (.ch true 110))
 (.seq (.one (.ch true 116))
 (.one (.ch true 104))))))))))))))
 (.seq (.one (.ch true 116))
 (.seq (.one (.ch true 104))
 (.seq (.one (.ch true 105))
 (.seq (.one (.ch true 114))
 (.seq (.one (.ch true 116))
 (.seq (.one (.ch true 105))
 (.seq (.one (.ch true 101))
 (.seq (.one (.ch true 116))
 (.one (.ch true 104)))))))))))
 (.seq (.one (.ch true 116))
 (.seq (.one (.ch true 104))
 (.seq (.one (.ch true 105))
 (.seq (.one (.ch true 114))
 (.seq (.one (.ch true 116))
 (.seq (.one (.ch true 121))
 (.seq (.one (.set true false [.one 32, .one 45]))
 (.seq (.one (.ch true 102))
 (.seq (.one (.ch true 105))
 (.seq (.one (.ch true 114))
 (.seq (.one (.ch true 115))
 (.one (.ch true 116)))))))))))))))
 (.seq (.look true (.seq (.star true (.one (.set true false [.cls .space false])))
 (.alt (.seq (.one (.ch true 97))
 (.one (.ch true 109)))
 (.seq (.one (.ch true 112))
 (.one (.ch true 109))))))
 (.seq (.seq (.one (.set true false [.cls .space false]))
 (.star true (.one (.set true false [.cls .space false]))))
 (.seq (.alt (.seq (.alt (.seq (.one (.ch true 116))
 (.one (.ch true 111)))
 (.one (.ch true 45)))
 (.seq (.star true (.one (.set true false [.cls .space false])))
 (.seq (.cap 6 (.alt (.alt (.alt (.alt (.alt (.alt (.alt (.alt (.alt (.alt (.alt (.alt (.alt (.alt (.alt (.alt (.alt (.alt (.alt (.alt (.alt (.alt (.alt (.alt (.alt (.alt (.alt (.alt (.alt (.alt (.alt (.seq (.cap 7 (.seq (.one (.set true false [.range 48 57]))
 (.alt (.one (.set true false [.range 48 57]))
 .eps)))
 (.alt (.alt (.alt (.alt (.seq (.one (.ch true 115))
 (.one (.ch true 116)))
 (.seq (.one (.ch true 110))
 (.one (.ch true 100))))
 (.seq (.one (.ch true 114))
 (.one (.ch true 100))))
 (.seq (.one (.ch true 116))
 (.one (.ch true 104))))
 .eps))
 (.seq (.one (.ch true 102))
 (.seq (.one (.ch true 105))
 (.seq (.one (.ch true 114))
 (.seq (.one (.ch true 115))
 (.one (.ch true 116)))))))
 (.seq (.one (.ch true 115))
 (.seq (.one (.ch true 101))
 (.seq (.one (.ch true 99))
 (.seq (.one (.ch true 111))
 (.seq (.one (.ch true 110))
 (.one (.ch true 100))))))))
 (.seq (.one (.ch true 116))
 (.seq (.one (.ch true 104))
 (.seq (.one (.ch true 105))
 (.seq (.one (.ch true 114))
 (.one (.ch true 100)))))))
 (.seq (.one (.ch true 102))
 (.seq (.one (.ch true 111))
 (.seq (.one (.ch true 117))
 (.seq (.one (.ch true 114))
 (.seq (.one (.ch true 116))
 (.one (.ch true 104))))))))
 (.seq (.one (.ch true 102))
 (.seq (.one (.ch true 105))
 (.seq (.one (.ch true 102))
 (.seq (.one (.ch true 116))
 (.one (.ch true 104)))))))
 (.seq (.one (.ch true 115))
 (.seq (.one (.ch true 105))
 (.seq (.one (.ch true 120))
 (.seq (.one (.ch true 116))
 (.one (.ch true 104)))))))
 (.seq (.one (.ch true 115))
 (.seq (.one (.ch true 101))
 (.seq (.one (.ch true 118))
 (.seq (.one (.ch true 101))
 (.seq (.one (.ch true 110))
 (.seq (.one (.ch true 116))
 (.one (.ch true 104)))))))))
 (.seq (.one (.ch true 101))
 (.seq (.one (.ch true 105))
 (.seq (.one (.ch true 103))
 (.seq (.one (.ch true 104))
 (.seq (.one (.ch true 116))
 (.one (.ch true 104))))))))
 (.seq (.one (.ch true 110))
 (.seq (.one (.ch true 105))
 (.seq (.one (.ch true 110))
 (.seq (.one (.ch true 116))
 (.one (.ch true 104)))))))
 (.seq (.one (.ch true 116))
 (.seq (.one (.ch true 101))
 (.seq (.one (.ch true 110))
 (.seq (.one (.ch true 116))
 (.one (.ch true 104)))))))
 (.seq (.one (.ch true 101))
 (.seq (.one (.ch true 108))
 (.seq (.one (.ch true 101))
 (.seq (.one (.ch true 118))
 (.seq (.one (.ch true 101))
 (.seq (.one (.ch true 110))
 (.seq (.one (.ch true 116))
 (.one (.ch true 104))))))))))
 (.seq (.one (.ch true 116))
 (.seq (.one (.ch true 119))
 (.seq (.one (.ch true 101))
 (.seq (.one (.ch true 108))
 (.seq (.one (.ch true 102))
 (.seq (.one (.ch true 116))
 (.one (.ch true 104)))))))))
 (.seq (.one (.ch true 116))
 (.seq (.one (.ch true 104))
 (.seq (.one (.ch true 105))
 (.seq (.one (.ch true 114))
 (.seq (.one (.ch true 116))
 (.seq (.one (.ch true 101))
 (.seq (.one (.ch true 101))
 (.seq (.one (.ch true 110))
 (.seq (.one (.ch true 116))
 (.one (.ch true 104))))))))))))
 (.seq (.one (.ch true 102))
 (.seq (.one (.ch true 111))
 (.seq (.one (.ch true 117))
 (.seq (.one (.ch true 114))
 (.seq (.one (.ch true 116))
 (.seq (.one (.ch true 101))
 (.seq (.one (.ch true 101))
 (.seq (.one (.ch true 110))
 (.seq (.one (.ch true 116))
 (.one (.ch true 104))))))))))))
 (.seq (.one (.ch true 102))
 (.seq (.one (.ch true 105))
 (.seq (.one (.ch true 102))
 (.seq (.one (.ch true 116))
 (.seq (.one (.ch true 101))
 (.seq (.one (.ch true 101))
 (.seq (.one (.ch true 110))
 (.seq (.one (.ch true 116))
 (.one (.ch true 104)))))))))))
 (.seq (.one (.ch true 115))
 (.seq (.one (.ch true 105))
 (.seq (.one (.ch true 120))
 (.seq (.one (.ch true 116))
 (.seq (.one (.ch true 101))
 (.seq (.one (.ch true 101))
 (.seq (.one (.ch true 110))
 (.seq (.one (.ch true 116))
 (.one (.ch true 104)))))))))))
 (.seq (.one (.ch true 115))
 (.seq (.one (.ch true 101))
 (.seq (.one (.ch true 118))
 (.seq (.one (.ch true 101))
 (.seq (.one (.ch true 110))
 (.seq (.one (.ch true 116))
 (.seq (.one (.ch true 104))
 (.seq (.one (.ch true 101))
 (.seq (.one (.ch true 101))
 (.seq (.one (.ch true 110))
 (.seq (.one (.ch true 116))
 (.one (.ch true 104))))))))))))))
 (.seq (.one (.ch true 101))
 (.seq (.one (.ch true 105))
 (.seq (.one (.ch true 103))
 (.seq (.one (.ch true 104))
 (.seq (.one (.ch true 116))
 (.seq (.one (.ch true 101))
 (.seq (.one (.ch true 101))
 (.seq (.one (.ch true 110))
 (.seq (.one (.ch true 116))
 (.one (.ch true 104))))))))))))
 (.seq (.one (.ch true 110))
 (.seq (.one (.ch true 105))
 (.seq (.one (.ch true 110))
 (.seq (.one (.ch true 101))
 (.seq (.one (.ch true 116))
 (.seq (.one (.ch true 101))
 (.seq (.one (.ch true 101))
 (.seq (.one (.ch true 110))
 (.seq (.one (.ch true 116))
 (.one (.ch true 104))))))))))))
 (.seq (.one (.ch true 116))
 (.seq (.one (.ch true 119))
 (.seq (.one (.ch true 101))
 (.seq (.one (.ch true 110))
 (.seq (.one (.ch true 116))
 (.seq (.one (.ch true 105))
 (.seq (.one (.ch true 101))
 (.seq (.one (.ch true 116))
 (.one (.ch true 104)))))))))))
 (.seq (.one (.ch true 116))
 (.seq (.one (.ch true 119))
 (.seq (.one (.ch true 101))
 (.seq (.one (.ch true 110))
 (.seq (.one (.ch true 116))
 (.seq (.one (.ch true 121))
 (.seq (.one (.set true false [.one 32, .one 45]))
 (.seq (.one (.ch true 102))
 (.seq (.one (.ch true 105))
 (.seq (.one (.ch true 114))
 (.seq (.one (.ch true 115))
 (.one (.ch true 116))))))))))))))
 (.seq (.one (.ch true 116))
 (.seq (.one (.ch true 119))
 (.seq (.one (.ch true 101))
 (.seq (.one (.ch true 110))
 (.seq (.one (.ch true 116))
 (.seq (.one (.ch true 121))
 (.seq (.one (.set true false [.one 32, .one 45]))
 (.seq (.one (.ch true 115))
 (.seq (.one (.ch true 101))
 (.seq (.one (.ch true 99))
 (.seq (.one (.ch true 111))
 (.seq (.one (.ch true 110))
 (.one (.ch true 100)))))))))))))))
 (.seq (.one (.ch true 116))
 (.seq (.one (.ch true 119))
 (.seq (.one (.ch true 101))
 (.seq (.one (.ch true 110))
 (.seq (.one (.ch true 116))
 (.seq (.one (.ch true 121))
 (.seq (.one (.set true false [.one 32, .one 45]))
 (.seq (.one (.ch true 116))
 (.seq (.one (.ch true 104))
 (.seq (.one (.ch true 105))
 (.seq (.one (.ch true 114))
 (.one (.ch true 100))))))))))))))
 (.seq (.one (.ch true 116))
 (.seq (.one (.ch true 119))
 (.seq (.one (.ch true 101))
 (.seq (.one (.ch true 110))
 (.seq (.one (.ch true 116))
 (.seq (.one (.ch true 121))
 (.seq (.one (.set true false [.one 32, .one 45]))
 (.seq (.one (.ch true 102))
 (.seq (.one (.ch true 111))
 (.seq (.one (.ch true 117))
 (.seq (.one (.ch true 114))
 (.seq (.one (.ch true 116))
 (.one (.ch true 104)))))))))))))))
 (.seq (.one (.ch true 116))
 (.seq (.one (.ch true 119))
 (.seq (.one (.ch true 101))
 (.seq (.one (.ch true 110))
 (.seq (.one (.ch true 116))
 (.seq (.one (.ch true 121))
 (.seq (.one (.set true false [.one 32, .one 45]))
 (.seq (.one (.ch true 102))
 (.seq (.one (.ch true 105))
 (.seq (.one (.ch true 102))
 (.seq (.one (.ch true 116))
 (.one (.ch true 104))))))))))))))
 (.seq (.one (.ch true 116))
 (.seq (.one (.ch true 119))
 (.seq (.one (.ch true 101))
 (.seq (.one (.ch true 110))
 (.seq (.one (.ch true 116))
 (.seq (.one (.ch true 121))
 (.seq (.one (.set true false [.one 32, .one 45]))
 (.seq (.one (.ch true 115))
 (.seq (.one (.ch true 105))
 (.seq (.one (.ch true 120))
 (.seq (.one (.ch true 116))
 (.one (.ch true 104))))))))))))))
 (.seq (.one (.ch true 116))
 (.seq (.one (.ch true 119))
 (.seq (.one (.ch true 101))
 (.seq (.one (.ch true 110))
 (.seq (.one (.ch true 116))
 (.seq (.one (.ch true 121))
 (.seq (.one (.set true false [.one 32, .one 45]))
 (.seq (.one (.ch true 115))
 (.seq (.one (.ch true 101))
 (.seq (.one (.ch true 118))
 (.seq (.one (.ch true 101))
 (.seq (.one (.ch true 110))
 (.seq (.one (.ch true 116))
 (.one (.ch true 104))))))))))))))))
 (.seq (.one (.ch true 116))
 (.seq (.one (.ch true 119))
 (.seq (.one (.ch true 101))
 (.seq (.one (.ch true 110))
 (.seq (.one (.ch true 116))
 (.seq (.one (.ch true 121))
 (.seq (.one (.set true false [.one 32, .one 45]))
 (.seq (.one (.ch true 101))
 (.seq (.one (.ch true 105))
 (.seq (.one (.ch true 103))
 (.seq (.one (.ch true 104))
 (.seq (.one (.ch true 116))
 (.one (.ch true 104)))))))))))))))
 (.seq (.one (.ch true 116))
 (.seq (.one (.ch true 119))
 (.seq (.one (.ch true 101))
 (.seq (.one (.ch true 110))
 (.seq (.one (.ch true 116))
 (.seq (.one (.ch true 121))
 (.seq (.one (.set true false [.one 32, .one 45]))
 (.seq (.one (.ch true 110))
 (.seq (.one (.ch true 105))
 (.seq (.one (.ch true 110))
 (.seq (.one (.ch true 116))
 (.one (.ch true 104))))))))))))))
 (.seq (.one (.ch true 116))
 (.seq (.one (.ch true 104))
 (.seq (.one (.ch true 105))
 (.seq (.one (.ch true 114))
 (.seq (.one (.ch true 116))
 (.seq (.one (.ch true 105))
 (.seq (.one (.ch true 101))
 (.seq (.one (.ch true 116))
 (.one (.ch true 104)))))))))))
 (.seq (.one (.ch true 116))
 (.seq (.one (.ch true 104))
 (.seq (.one (.ch true 105))
 (.seq (.one (.ch true 114))
 (.seq (.one (.ch true 116))
 (.seq (.one (.ch true 121))
 (.seq (.one (.set true false [.one 32, .one 45]))
 (.seq (.one (.ch true 102))
 (.seq (.one (.ch true 105))
 (.seq (.one (.ch true 114))
 (.seq (.one (.ch true 115))
 (.one (.ch true 116)))))))))))))))
 (.star true (.one (.set true false [.cls .space false]))))))
 .eps)
 (.seq (.alt (.seq (.alt (.alt (.one (.ch true 45))
 (.one (.ch true 47)))
 (.seq (.star true (.one (.set true false [.cls .space false])))
 (.seq (.alt (.one (.ch true 44))
 .eps)
 (.star true (.one (.set true false [.cls .space false]))))))
 (.seq (.alt (.seq (.cap 8 (.seq (.one (.set true false [.range 48 57]))
 (.seq (.one (.set true false [.range 48 57]))
 (.seq (.one (.set true false [.range 48 57]))
 (.one (.set true false [.range 48 57]))))))
 (.seq (.star true (.one (.set true false [.cls .space false])))
 (.alt (.cap 9 (.alt (.alt (.seq (.one (.ch true 66))
 (.one (.ch true 69)))
 (.seq (.one (.ch true 65))
 (.one (.ch true 68))))
 (.seq (.one (.ch true 66))
 (.one (.ch true 67)))))
 .eps)))
 (.seq (.cap 10 (.seq (.one (.set true false [.range 48 57]))
 (.alt (.seq (.one (.set true false [.range 48 57]))
 (.alt (.seq (.one (.set true false [.range 48 57]))
 (.alt (.one (.set true false [.range 48 57]))
 .eps))
 .eps))
 .eps)))
 (.seq (.star true (.one (.set true false [.cls .space false])))
 (.cap 11 (.alt (.seq (.one (.ch true 65))
 (.one (.ch true 68)))
 (.seq (.one (.ch true 66))
 (.one (.ch true 67))))))))
 (.seq (.one (.set true false [.cls .space false]))
 (.star true (.one (.set true false [.cls .space false]))))))
 .eps)
 (.seq (.cap 12 (.wb false))
 (.look true (.seq (.one (.ch true 58))
 (.one (.set true false [.cls .digit false]))))))))))))))

/-- tree of `Pat.timeLater` -/
def timeLater : Re :=
 (.seq (.cap 1 (.wb false))
 (.seq (.cap 2 (.seq (.seq (.cap 3 (.alt (.alt (.alt (.alt (.alt (.alt (.alt (.alt (.alt (.alt (.alt (.alt (.alt (.alt (.seq (.one (.ch true 111))
 (.seq (.one (.ch true 110))
 (.one (.ch true 101))))
 (.seq (.one (.ch true 116))
 (.seq (.one (.ch true 119))
 (.one (.ch true 111)))))
 (.seq (.one (.ch true 116))
 (.seq (.one (.ch true 104))
 (.seq (.one (.ch true 114))
 (.seq (.one (.ch true 101))
 (.one (.ch true 101)))))))
 (.seq (.one (.ch true 102))
 (.seq (.one (.ch true 111))
 (.seq (.one (.ch true 117))
 (.one (.ch true 114))))))
 (.seq (.one (.ch true 102))
 (.seq (.one (.ch true 105))
 (.seq (.one (.ch true 118))
 (.one (.ch true 101))))))
 (.seq (.one (.ch true 115))
 (.seq (.one (.ch true 105))
 (.one (.ch true 120)))))
 (.seq (.one (.ch true 115))
 (.seq (.one (.ch true 101))
 (.seq (.one (.ch true 118))
 (.seq (.one (.ch true 101))
 (.one (.ch true 110)))))))
 (.seq (.one (.ch true 101))
 (.seq (.one (.ch true 105))
 (.seq (.one (.ch true 103))
 (.seq (.one (.ch true 104))
 (.one (.ch true 116)))))))
 (.seq (.one (.ch true 110))
 (.seq (.one (.ch true 105))
 (.seq (.one (.ch true 110))
 (.one (.ch true 101))))))
 (.seq (.one (.ch true 116))
 (.seq (.one (.ch true 101))
 (.one (.ch true 110)))))
 (.seq (.one (.ch true 101))
 (.seq (.one (.ch true 108))
 (.seq (.one (.ch true 101))
 (.seq (.one (.ch true 118))
 (.seq (.one (.ch true 101))
 (.one (.ch true 110))))))))
 (.seq (.one (.ch true 116))
 (.seq (.one (.ch true 119))
 (.seq (.one (.ch true 101))
 (.seq (.one (.ch true 108))
 (.seq (.one (.ch true 118))
 (.one (.ch true 101))))))))
 (.seq (.one (.set true false [.range 48 57]))
 (.star true (.one (.set true false [.range 48 57])))))
 (.seq (.one (.ch true 97))
 (.seq (.alt (.one (.ch true 110))
 .eps)
 (.alt (.seq (.star true (.one (.set true false [.cls .space false])))
 (.seq (.one (.ch true 102))
 (.seq (.one (.ch true 101))
 (.one (.ch true 119)))))
 .eps))))
 (.seq (.one (.ch true 104))
 (.seq (.one (.ch true 97))
 (.seq (.one (.ch true 108))
 (.seq (.one (.ch true 102))
 (.seq (.alt (.seq (.seq (.one (.set true false [.cls .space false]))
 (.star true (.one (.set true false [.cls .space false]))))
 (.seq (.one (.ch true 97))
 (.alt (.one (.ch true 110))
 .eps)))
 .eps)
 (.one (.ch true 34)))))))))
 (.seq (.seq (.one (.set true false [.cls .space false]))
 (.star true (.one (.set true false [.cls .space false]))))
 (.seq (.cap 4 (.alt (.alt (.alt (.alt (.alt (.alt (.seq (.one (.ch true 115))
 (.seq (.one (.ch true 101))
 (.seq (.one (.ch true 99))
 (.alt (.seq (.one (.ch true 111))
 (.seq (.one (.ch true 110))
 (.seq (.one (.ch true 100))
 (.alt (.one (.ch true 115))
 .eps))))
 .eps))))
 (.seq (.one (.ch true 109))
 (.seq (.one (.ch true 105))
 (.seq (.one (.ch true 110))
 (.seq (.alt (.seq (.one (.ch true 117))
 (.seq (.one (.ch true 116))
 (.one (.ch true 101))))
 .eps)
 (.alt (.one (.ch true 115))
 .eps))))))
 (.seq (.one (.ch true 104))
 (.seq (.one (.ch true 111))
 (.seq (.one (.ch true 117))
 (.seq (.one (.ch true 114))
 (.alt (.one (.ch true 115))
 .eps))))))
 (.seq (.one (.ch true 119))
 (.seq (.one (.ch true 101))
 (.seq (.one (.ch true 101))
 (.seq (.one (.ch true 107))
 (.alt (.one (.ch true 115))
 .eps))))))
 (.seq (.one (.ch true 100))
 (.seq (.one (.ch true 97))
 (.seq (.one (.ch true 121))
 (.alt (.one (.ch true 115))
 .eps)))))
 (.seq (.one (.ch true 109))
 (.seq (.one (.ch true 111))
 (.seq (.one (.ch true 110))
 (.seq (.one (.ch true 116))
 (.seq (.one (.ch true 104))
 (.alt (.one (.ch true 115))
 .eps)))))))
 (.seq (.one (.ch true 121))
 (.seq (.one (.ch true 101))
 (.seq (.one (.ch true 97))
 (.seq (.one (.ch true 114))
 (.alt (.one (.ch true 115))
 .eps)))))))
 (.seq (.one (.ch true 92))
 (.star true (.one (.ch true 115)))))))
 (.star true (.seq (.cap 3 (.alt (.alt (.alt (.alt (.alt (.alt (.alt (.alt (.alt (.alt (.alt (.alt (.alt (.alt (.seq (.one (.ch true 111))
 (.seq (.one (.ch true 110))
 (.one (.ch true 101))))
 (.seq (.one (.ch true 116))
 (.seq (.one (.ch true 119))
 (.one (.ch true 111)))))
 (.seq (.one (.ch true 116))
 (.seq (.one (.ch true 104))
 (.seq (.one (.ch true 114))
 (.seq (.one (.ch true 101))
 (.one (.ch true 101)))))))
 (.seq (.one (.ch true 102))
 (.seq (.one (.ch true 111))
 (.seq (.one (.ch true 117))
 (.one (.ch true 114))))))
 (.seq (.one (.ch true 102))
 (.seq (.one (.ch true 105))
 (.seq (.one (.ch true 118))
 (.one (.ch true 101))))))
 (.seq (.one (.ch true 115))
 (.seq (.one (.ch true 105))
 (.one (.ch true 120)))))
 (.seq (.one (.ch true 115))
 (.seq (.one (.ch true 101))
 (.seq (.one (.ch true 118))
 (.seq (.one (.ch true 101))
 (.one (.ch true 110)))))))
 (.seq (.one (.ch true 101))
 (.seq (.one (.ch true 105))
 (.seq (.one (.ch true 103))
 (.seq (.one (.ch true 104))
 (.one (.ch true 116)))))))
 (.seq (.one (.ch true 110))
 (.seq (.one (.ch true 105))
 (.seq (.one (.ch true 110))
 (.one (.ch true 101))))))
 (.seq (.one (.ch true 116))
 (.seq (.one (.ch true 101))
 (.one (.ch true 110)))))
 (.seq (.one (.ch true 101))
 (.seq (.one (.ch true 108))
 (.seq (.one (.ch true 101))
 (.seq (.one (.ch true 118))
 (.seq (.one (.ch true 101))
 (.one (.ch true 110))))))))
 (.seq (.one (.ch true 116))
 (.seq (.one (.ch true 119))
 (.seq (.one (.ch true 101))
 (.seq (.one (.ch true 108))
 (.seq (.one (.ch true 118))
 (.one (.ch true 101))))))))
 (.seq (.one (.set true false [.range 48 57]))
 (.star true (.one (.set true false [.range 48 57])))))
 (.seq (.one (.ch true 97))
 (.seq (.alt (.one (.ch true 110))
 .eps)
 (.alt (.seq (.star true (.one (.set true false [.cls .space false])))
 (.seq (.one (.ch true 102))
 (.seq (.one (.ch true 101))
 (.one (.ch true 119)))))
 .eps))))
 (.seq (.one (.ch true 104))
 (.seq (.one (.ch true 97))
 (.seq (.one (.ch true 108))
 (.seq (.one (.ch true 102))
 (.seq (.alt (.seq (.seq (.one (.set true false [.cls .space false]))
 (.star true (.one (.set true false [.cls .space false]))))
 (.seq (.one (.ch true 97))
 (.alt (.one (.ch true 110))
 .eps)))
 .eps)
 (.one (.ch true 34)))))))))
 (.seq (.seq (.one (.set true false [.cls .space false]))
 (.star true (.one (.set true false [.cls .space false]))))
 (.seq (.cap 4 (.alt (.alt (.alt (.alt (.alt (.alt (.seq (.one (.ch true 115))
 (.seq (.one (.ch true 101))
 (.seq (.one (.ch true 99))
 (.alt (.seq (.one (.ch true 111))
 (.seq (.one (.ch true 110))
 (.seq (.one (.ch true 100))
 (.alt (.one (.ch true 115))
 .eps))))
 .eps))))
 (.seq (.one (.ch true 109))
 (.seq (.one (.ch true 105))
 (.seq (.one (.ch true 110))
 (.seq (.alt (.seq (.one (.ch true 117))
 (.seq (.one (.ch true 116))
 (.one (.ch true 101))))
 .eps)
 (.alt (.one (.ch true 115))
 .eps))))))
 (.seq (.one (.ch true 104))
 (.seq (.one (.ch true 111))
 (.seq (.one (.ch true 117))
 (.seq (.one (.ch true 114))
 (.alt (.one (.ch true 115))
 .eps))))))
 (.seq (.one (.ch true 119))
 (.seq (.one (.ch true 101))
 (.seq (.one (.ch true 101))
 (.seq (.one (.ch true 107))
 (.alt (.one (.ch true 115))
 .eps))))))
 (.seq (.one (.ch true 100))
 (.seq (.one (.ch true 97))
 (.seq (.one (.ch true 121))
 (.alt (.one (.ch true 115))
 .eps)))))
 (.seq (.one (.ch true 109))
 (.seq (.one (.ch true 111))
 (.seq (.one (.ch true 110))
 (.seq (.one (.ch true 116))
 (.seq (.one (.ch true 104))
 (.alt (.one (.ch true 115))
 .eps)))))))
 (.seq (.one (.ch true 121))
 (.seq (.one (.ch true 101))
 (.seq (.one (.ch true 97))
 (.seq (.one (.ch true 114))
 (.alt (.one (.ch true 115))
 .eps)))))))
 (.seq (.one (.ch true 92))
 (.star true (.one (.ch true 115))))))))))
 (.seq (.alt (.alt (.alt (.alt (.alt (.seq (.one (.ch true 108))
 (.seq (.one (.ch true 97))
 (.seq (.one (.ch true 116))
 (.seq (.one (.ch true 101))
 (.one (.ch true 114))))))
 (.seq (.one (.ch true 97))
 (.seq (.one (.ch true 102))
 (.seq (.one (.ch true 116))
 (.seq (.one (.ch true 101))
 (.one (.ch true 114)))))))
 (.seq (.one (.ch true 102))
 (.seq (.one (.ch true 114))
 (.seq (.one (.ch true 111))
 (.seq (.one (.ch true 109))
 (.seq (.one (.ch true 32))
 (.seq (.one (.ch true 110))
 (.seq (.one (.ch true 111))
 (.one (.ch true 119))))))))))
 (.seq (.one (.ch true 104))
 (.seq (.one (.ch true 101))
 (.seq (.one (.ch true 110))
 (.seq (.one (.ch true 99))
 (.seq (.one (.ch true 101))
 (.seq (.one (.ch true 102))
 (.seq (.one (.ch true 111))
 (.seq (.one (.ch true 114))
 (.seq (.one (.ch true 116))
 (.one (.ch true 104))))))))))))
 (.seq (.one (.ch true 102))
 (.seq (.one (.ch true 111))
 (.seq (.one (.ch true 114))
 (.seq (.one (.ch true 119))
 (.seq (.one (.ch true 97))
 (.seq (.one (.ch true 114))
 (.one (.ch true 100)))))))))
 (.seq (.one (.ch true 111))
 (.seq (.one (.ch true 117))
 (.one (.ch true 116)))))
 (.cap 5 (.wb false)))))

/-- tree of `Pat.monthName` -/
def monthName : Re :=
 (.seq (.cap 1 (.alt (.alt .bol
 (.seq (.one (.set true true [.cls .digit false]))
 (.seq (.one (.set true false [.cls .space false]))
 (.star true (.one (.set true false [.cls .space false]))))))
 (.one (.set true true [.cls .word false, .cls .space false]))))
 (.seq (.cap 2 (.alt (.alt (.alt (.alt (.alt (.alt (.alt (.alt (.alt (.alt (.alt (.alt (.alt (.alt (.alt (.alt (.alt (.alt (.alt (.alt (.alt (.alt (.alt (.seq (.one (.ch true 74))
 (.seq (.one (.ch true 97))
 (.seq (.one (.ch true 110))
 (.alt (.one (.ch true 46))
 .eps))))
 (.seq (.one (.ch true 74))
 (.seq (.one (.ch true 97))
 (.seq (.one (.ch true 110))
 (.seq (.one (.ch true 117))
 (.seq (.one (.ch true 97))
 (.seq (.one (.ch true 114))
 (.one (.ch true 121)))))))))
 (.seq (.one (.ch true 70))
 (.seq (.one (.ch true 101))
 (.seq (.one (.ch true 98))
 (.alt (.one (.ch true 46))
 .eps)))))
 (.seq (.one (.ch true 70))
 (.seq (.one (.ch true 101))
 (.seq (.one (.ch true 98))
 (.seq (.one (.ch true 114))
 (.seq (.one (.ch true 117))
 (.seq (.one (.ch true 97))
 (.seq (.one (.ch true 114))
 (.one (.ch true 121))))))))))
 (.seq (.one (.ch true 77))
 (.seq (.one (.ch true 97))
 (.seq (.one (.ch true 114))
 (.alt (.one (.ch true 46))
 .eps)))))
 (.seq (.one (.ch true 77))
 (.seq (.one (.ch true 97))
 (.seq (.one (.ch true 114))
 (.seq (.one (.ch true 99))
 (.one (.ch true 104)))))))
 (.seq (.one (.ch true 65))
 (.seq (.one (.ch true 112))
 (.seq (.one (.ch true 114))
 (.alt (.one (.ch true 46))
 .eps)))))
 (.seq (.one (.ch true 65))
 (.seq (.one (.ch true 112))
 (.seq (.one (.ch true 114))
 (.seq (.one (.ch true 105))
 (.one (.ch true 108)))))))
 (.seq (.one (.ch true 77))
 (.seq (.one (.ch true 97))
 (.seq (.one (.ch true 121))
 (.alt (.one (.ch true 46))
 .eps)))))
 (.seq (.one (.ch true 74))
 (.seq (.one (.ch true 117))
 (.seq (.one (.ch true 110))
 (.seq (.one (.ch true 92))
 (.alt (.one .any)
 .eps))))))
 (.seq (.one (.ch true 74))
 (.seq (.one (.ch true 117))
 (.seq (.one (.ch true 110))
 (.one (.ch true 101))))))
 (.seq (.one (.ch true 74))
 (.seq (.one (.ch true 117))
 (.seq (.one (.ch true 108))
 (.alt (.one (.ch true 46))
 .eps)))))
 (.seq (.one (.ch true 74))
 (.seq (.one (.ch true 117))
 (.seq (.one (.ch true 108))
 (.one (.ch true 121))))))
 (.seq (.one (.ch true 65))
 (.seq (.one (.ch true 117))
 (.seq (.one (.ch true 103))
 (.alt (.one (.ch true 46))
 .eps)))))
 (.seq (.one (.ch true 65))
 (.seq (.one (.ch true 117))
 (.seq (.one (.ch true 103))
 (.seq (.one (.ch true 117))
 (.seq (.one (.ch true 115))
 (.one (.ch true 116))))))))
 (.seq (.one (.ch true 83))
 (.seq (.one (.ch true 101))
 (.seq (.one (.ch true 112))
 (.alt (.one (.ch true 46))
 .eps)))))
 (.seq (.one (.ch true 83))
 (.seq (.one (.ch true 101))
 (.seq (.one (.ch true 112))
 (.seq (.one (.ch true 116))
 (.alt (.one (.ch true 46))
 .eps))))))
 (.seq (.one (.ch true 83))
 (.seq (.one (.ch true 101))
 (.seq (.one (.ch true 112))
 (.seq (.one (.ch true 116))
 (.seq (.one (.ch true 101))
 (.seq (.one (.ch true 109))
 (.seq (.one (.ch true 98))
 (.seq (.one (.ch true 101))
 (.one (.ch true 114)))))))))))
 (.seq (.one (.ch true 79))
 (.seq (.one (.ch true 99))
 (.seq (.one (.ch true 116))
 (.alt (.one (.ch true 46))
 .eps)))))
 (.seq (.one (.ch true 79))
 (.seq (.one (.ch true 99))
 (.seq (.one (.ch true 116))
 (.seq (.one (.ch true 111))
 (.seq (.one (.ch true 98))
 (.seq (.one (.ch true 101))
 (.one (.ch true 114)))))))))
 (.seq (.one (.ch true 78))
 (.seq (.one (.ch true 111))
 (.seq (.one (.ch true 118))
 (.alt (.one (.ch true 46))
 .eps)))))
 (.seq (.one (.ch true 78))
 (.seq (.one (.ch true 111))
 (.seq (.one (.ch true 118))
 (.seq (.one (.ch true 101))
 (.seq (.one (.ch true 109))
 (.seq (.one (.ch true 98))
 (.seq (.one (.ch true 101))
 (.one (.ch true 114))))))))))
 (.seq (.one (.ch true 68))
 (.seq (.one (.ch true 101))
 (.seq (.one (.ch true 99))
 (.alt (.one (.ch true 46))
 .eps)))))
 (.seq (.one (.ch true 68))
 (.seq (.one (.ch true 101))
 (.seq (.one (.ch true 99))
 (.seq (.one (.ch true 101))
 (.seq (.one (.ch true 109))
 (.seq (.one (.ch true 98))
 (.seq (.one (.ch true 101))
 (.one (.ch true 114)))))))))))
 (.seq (.star true (.one (.set true false [.cls .space false])))
 (.seq (.alt (.seq (.alt (.one (.set true false [.one 44, .one 45]))
 .eps)
 (.seq (.star true (.one (.set true false [.cls .space false])))
 (.seq (.cap 3 (.seq (.one (.set true false [.range 48 57]))
 (.seq (.one (.set true false [.range 48 57]))
 (.seq (.one (.set true false [.range 48 57]))
 (.one (.set true false [.range 48 57]))))))
 (.alt (.cap 4 (.alt (.alt (.seq (.star true (.one (.set true false [.cls .space false])))
 (.seq (.one (.ch true 66))
 (.one (.ch true 69))))
 (.seq (.one (.ch true 65))
 (.one (.ch true 68))))
 (.seq (.one (.ch true 66))
 (.one (.ch true 67)))))
 .eps))))
 .eps)
 (.look false (.alt (.alt (.alt (.one (.set true true [.cls .space false, .cls .word false]))
 (.seq (.seq (.one (.set true false [.cls .space false]))
 (.star true (.one (.set true false [.cls .space false]))))
 (.one (.set true true [.range 48 57]))))
 (.seq (.seq (.one (.set true false [.cls .space false]))
 (.star true (.one (.set true false [.cls .space false]))))
 .eol))
 .eol))))))

/-- tree of `Pat.timeAgo` -/
def timeAgo : Re :=
 (.seq (.cap 1 (.wb false))
 (.seq (.alt (.seq (.one (.ch true 119))
 (.seq (.one (.ch true 105))
 (.seq (.one (.ch true 116))
 (.seq (.one (.ch true 104))
 (.seq (.one (.ch true 105))
 (.seq (.one (.ch true 110))
 (.star true (.one (.set true false [.cls .space false])))))))))
 .eps)
 (.seq (.cap 2 (.seq (.seq (.cap 3 (.alt (.alt (.alt (.alt (.alt (.alt (.alt (.alt (.alt (.alt (.alt (.alt (.alt (.alt (.seq (.one (.ch true 111))
 (.seq (.one (.ch true 110))
 (.one (.ch true 101))))
 (.seq (.one (.ch true 116))
 (.seq (.one (.ch true 119))
 (.one (.ch true 111)))))
 (.seq (.one (.ch true 116))
 (.seq (.one (.ch true 104))
 (.seq (.one (.ch true 114))
 (.seq (.one (.ch true 101))
 (.one (.ch true 101)))))))
 (.seq (.one (.ch true 102))
 (.seq (.one (.ch true 111))
 (.seq (.one (.ch true 117))
 (.one (.ch true 114))))))
 (.seq (.one (.ch true 102))
 (.seq (.one (.ch true 105))
 (.seq (.one (.ch true 118))
 (.one (.ch true 101))))))
 (.seq (.one (.ch true 115))
 (.seq (.one (.ch true 105))
 (.one (.ch true 120)))))
 (.seq (.one (.ch true 115))
 (.seq (.one (.ch true 101))
 (.seq (.one (.ch true 118))
 (.seq (.one (.ch true 101))
 (.one (.ch true 110)))))))
 (.seq (.one (.ch true 101))
 (.seq (.one (.ch true 105))
 (.seq (.one (.ch true 103))
 (.seq (.one (.ch true 104))
 (.one (.ch true 116)))))))
 (.seq (.one (.ch true 110))
 (.seq (.one (.ch true 105))
 (.seq (.one (.ch true 110))
 (.one (.ch true 101))))))
 (.seq (.one (.ch true 116))
 (.seq (.one (.ch true 101))
 (.one (.ch true 110)))))
 (.seq (.one (.ch true 101))
 (.seq (.one (.ch true 108))
 (.seq (.one (.ch true 101))
 (.seq (.one (.ch true 118))
 (.seq (.one (.ch true 101))
 (.one (.ch true 110))))))))
 (.seq (.one (.ch true 116))
 (.seq (.one (.ch true 119))
 (.seq (.one (.ch true 101))
 (.seq (.one (.ch true 108))
 (.seq (.one (.ch true 118))
 (.one (.ch true 101))))))))
 (.seq (.one (.set true false [.range 48 57]))
 (.star true (.one (.set true false [.range 48 57])))))
 (.seq (.one (.ch true 97))
 (.seq (.alt (.one (.ch true 110))
 .eps)
 (.alt (.seq (.star true (.one (.set true false [.cls .space false])))
 (.seq (.one (.ch true 102))
 (.seq (.one (.ch true 101))
 (.one (.ch true 119)))))
 .eps))))
 (.seq (.one (.ch true 104))
 (.seq (.one (.ch true 97))
 (.seq (.one (.ch true 108))
 (.seq (.one (.ch true 102))
 (.alt (.seq (.star true (.one (.set true false [.cls .space false])))
 (.seq (.one (.ch true 97))
 (.alt (.one (.ch true 110))
 .eps)))
 .eps)))))))
 (.seq (.star true (.one (.set true false [.cls .space false])))
 (.seq (.cap 4 (.alt (.alt (.alt (.alt (.alt (.alt (.seq (.one (.ch true 115))
 (.seq (.one (.ch true 101))
 (.seq (.one (.ch true 99))
 (.alt (.seq (.one (.ch true 111))
 (.seq (.one (.ch true 110))
 (.seq (.one (.ch true 100))
 (.alt (.one (.ch true 115))
 .eps))))
 .eps))))
 (.seq (.one (.ch true 109))
 (.seq (.one (.ch true 105))
 (.seq (.one (.ch true 110))
 (.seq (.alt (.seq (.one (.ch true 117))
 (.seq (.one (.ch true 116))
 (.one (.ch true 101))))
 .eps)
 (.alt (.one (.ch true 115))
 .eps))))))
 (.seq (.one (.ch true 104))
 (.seq (.one (.ch true 111))
 (.seq (.one (.ch true 117))
 (.seq (.one (.ch true 114))
 (.alt (.one (.ch true 115))
 .eps))))))
 (.seq (.one (.ch true 119))
 (.seq (.one (.ch true 101))
 (.seq (.one (.ch true 101))
 (.seq (.one (.ch true 107))
 (.alt (.one (.ch true 115))
 .eps))))))
 (.seq (.one (.ch true 100))
 (.seq (.one (.ch true 97))
 (.seq (.one (.ch true 121))
 (.alt (.one (.ch true 115))
 .eps)))))
 (.seq (.one (.ch true 109))
 (.seq (.one (.ch true 111))
 (.seq (.one (.ch true 110))
 (.seq (.one (.ch true 116))
 (.seq (.one (.ch true 104))
 (.alt (.one (.ch true 115))
 .eps)))))))
 (.seq (.one (.ch true 121))
 (.seq (.one (.ch true 101))
 (.seq (.one (.ch true 97))
 (.seq (.one (.ch true 114))
 (.alt (.one (.ch true 115))
 .eps)))))))
 (.seq (.one (.ch true 92))
 (.star true (.one (.ch true 115)))))))
 (.star true (.seq (.cap 3 (.alt (.alt (.alt (.alt (.alt (.alt (.alt (.alt (.alt (.alt (.alt (.alt (.alt (.alt (.seq (.one (.ch true 111))
 (.seq (.one (.ch true 110))
 (.one (.ch true 101))))
 (.seq (.one (.ch true 116))
 (.seq (.one (.ch true 119))
 (.one (.ch true 111)))))
 (.seq (.one (.ch true 116))
 (.seq (.one (.ch true 104))
 (.seq (.one (.ch true 114))
 (.seq (.one (.ch true 101))
 (.one (.ch true 101)))))))
 (.seq (.one (.ch true 102))
 (.seq (.one (.ch true 111))
 (.seq (.one (.ch true 117))
 (.one (.ch true 114))))))
 (.seq (.one (.ch true 102))
 (.seq (.one (.ch true 105))
 (.seq (.one (.ch true 118))
 (.one (.ch true 101))))))
 (.seq (.one (.ch true 115))
 (.seq (.one (.ch true 105))
 (.one (.ch true 120)))))
 (.seq (.one (.ch true 115))
 (.seq (.one (.ch true 101))
 (.seq (.one (.ch true 118))
 (.seq (.one (.ch true 101))
 (.one (.ch true 110)))))))
 (.seq (.one (.ch true 101))
 (.seq (.one (.ch true 105))
 (.seq (.one (.ch true 103))
 (.seq (.one (.ch true 104))
 (.one (.ch true 116)))))))
 (.seq (.one (.ch true 110))
 (.seq (.one (.ch true 105))
 (.seq (.one (.ch true 110))
 (.one (.ch true 101))))))
 (.seq (.one (.ch true 116))
 (.seq (.one (.ch true 101))
 (.one (.ch true 110)))))
 (.seq (.one (.ch true 101))
 (.seq (.one (.ch true 108))
 (.seq (.one (.ch true 101))
 (.seq (.one (.ch true 118))
 (.seq (.one (.ch true 101))
 (.one (.ch true 110))))))))
 (.seq (.one (.ch true 116))
 (.seq (.one (.ch true 119))
 (.seq (.one (.ch true 101))
 (.seq (.one (.ch true 108))
 (.seq (.one (.ch true 118))
 (.one (.ch true 101))))))))
 (.seq (.one (.set true false [.range 48 57]))
 (.star true (.one (.set true false [.range 48 57])))))
 (.seq (.one (.ch true 97))
 (.seq (.alt (.one (.ch true 110))
 .eps)
 (.alt (.seq (.star true (.one (.set true false [.cls .space false])))
 (.seq (.one (.ch true 102))
 (.seq (.one (.ch true 101))
 (.one (.ch true 119)))))
 .eps))))
 (.seq (.one (.ch true 104))
 (.seq (.one (.ch true 97))
 (.seq (.one (.ch true 108))
 (.seq (.one (.ch true 102))
 (.alt (.seq (.star true (.one (.set true false [.cls .space false])))
 (.seq (.one (.ch true 97))
 (.alt (.one (.ch true 110))
 .eps)))
 .eps)))))))
 (.seq (.star true (.one (.set true false [.cls .space false])))
 (.seq (.cap 4 (.alt (.alt (.alt (.alt (.alt (.alt (.seq (.one (.ch true 115))
 (.seq (.one (.ch true 101))
 (.seq (.one (.ch true 99))
 (.alt (.seq (.one (.ch true 111))
 (.seq (.one (.ch true 110))
 (.seq (.one (.ch true 100))
 (.alt (.one (.ch true 115))
 .eps))))
 .eps))))
 (.seq (.one (.ch true 109))
 (.seq (.one (.ch true 105))
 (.seq (.one (.ch true 110))
 (.seq (.alt (.seq (.one (.ch true 117))
 (.seq (.one (.ch true 116))
 (.one (.ch true 101))))
 .eps)
 (.alt (.one (.ch true 115))
 .eps))))))
 (.seq (.one (.ch true 104))
 (.seq (.one (.ch true 111))
 (.seq (.one (.ch true 117))
 (.seq (.one (.ch true 114))
 (.alt (.one (.ch true 115))
 .eps))))))
 (.seq (.one (.ch true 119))
 (.seq (.one (.ch true 101))
 (.seq (.one (.ch true 101))
 (.seq (.one (.ch true 107))
 (.alt (.one (.ch true 115))
 .eps))))))
 (.seq (.one (.ch true 100))
 (.seq (.one (.ch true 97))
 (.seq (.one (.ch true 121))
 (.alt (.one (.ch true 115))
 .eps)))))
 (.seq (.one (.ch true 109))
 (.seq (.one (.ch true 111))
 (.seq (.one (.ch true 110))
 (.seq (.one (.ch true 116))
 (.seq (.one (.ch true 104))
 (.alt (.one (.ch true 115))
 .eps)))))))
 (.seq (.one (.ch true 121))
 (.seq (.one (.ch true 101))
 (.seq (.one (.ch true 97))
 (.seq (.one (.ch true 114))
 (.alt (.one (.ch true 115))
 .eps)))))))
 (.seq (.one (.ch true 92))
 (.star true (.one (.ch true 115))))))))))
 (.seq (.alt (.alt (.seq (.one (.ch true 97))
 (.seq (.one (.ch true 103))
 (.one (.ch true 111))))
 (.seq (.one (.ch true 98))
 (.seq (.one (.ch true 101))
 (.seq (.one (.ch true 102))
 (.seq (.one (.ch true 111))
 (.seq (.one (.ch true 114))
 (.one (.ch true 101))))))))
 (.seq (.one (.ch true 101))
 (.seq (.one (.ch true 97))
 (.seq (.one (.ch true 114))
 (.seq (.one (.ch true 108))
 (.seq (.one (.ch true 105))
 (.seq (.one (.ch true 101))
 (.one (.ch true 114)))))))))
 (.cap 5 (.wb false))))))

/-- tree of `Pat.timeExpr` -/
def timeExpr : Re :=
 (.seq (.cap 1 (.alt (.alt .bol
 (.one (.set true false [.cls .space false])))
 (.one (.ch true 84))))
 (.seq (.alt .eps
 (.seq (.alt (.seq (.one (.ch true 97))
 (.one (.ch true 116)))
 (.seq (.one (.ch true 102))
 (.seq (.one (.ch true 114))
 (.seq (.one (.ch true 111))
 (.one (.ch true 109))))))
 (.star true (.one (.set true false [.cls .space false])))))
 (.seq (.cap 2 (.alt (.alt (.seq (.one (.set true false [.cls .digit false]))
 (.alt (.seq (.one (.set true false [.cls .digit false]))
 (.alt (.seq (.one (.set true false [.cls .digit false]))
 (.alt (.one (.set true false [.cls .digit false]))
 .eps))
 .eps))
 .eps))
 (.seq (.one (.ch true 110))
 (.seq (.one (.ch true 111))
 (.seq (.one (.ch true 111))
 (.one (.ch true 110))))))
 (.seq (.one (.ch true 109))
 (.seq (.one (.ch true 105))
 (.seq (.one (.ch true 100))
 (.seq (.one (.ch true 110))
 (.seq (.one (.ch true 105))
 (.seq (.one (.ch true 103))
 (.seq (.one (.ch true 104))
 (.one (.ch true 116)))))))))))
 (.seq (.alt (.seq (.alt (.alt (.one (.ch true 46))
 (.one (.ch true 58)))
 (.seq (.one (.ch true 239))
 (.seq (.one (.ch true 188))
 (.one (.ch true 154)))))
 (.seq (.cap 3 (.seq (.one (.set true false [.cls .digit false]))
 (.alt (.one (.set true false [.cls .digit false]))
 .eps)))
 (.alt (.seq (.alt (.one (.ch true 58))
 (.seq (.one (.ch true 239))
 (.seq (.one (.ch true 188))
 (.one (.ch true 154)))))
 (.seq (.cap 4 (.seq (.one (.set true false [.cls .digit false]))
 (.one (.set true false [.cls .digit false]))))
 (.alt (.seq (.one (.ch true 46))
 (.cap 5 (.seq (.one (.set true false [.cls .digit false]))
 (.alt (.seq (.one (.set true false [.cls .digit false]))
 (.alt (.seq (.one (.set true false [.cls .digit false]))
 (.alt (.seq (.one (.set true false [.cls .digit false]))
 (.alt (.seq (.one (.set true false [.cls .digit false]))
 (.alt (.one (.set true false [.cls .digit false]))
 .eps))
 .eps))
 .eps))
 .eps))
 .eps))))
 .eps)))
 .eps)))
 .eps)
 (.seq (.alt (.seq (.star true (.one (.set true false [.cls .space false])))
 (.cap 6 (.alt (.alt (.alt (.alt (.seq (.one (.ch true 65))
 (.seq (.one (.ch true 46))
 (.seq (.one (.ch true 77))
 (.alt (.one (.ch true 46))
 .eps))))
 (.seq (.one (.ch true 80))
 (.seq (.one (.ch true 46))
 (.seq (.one (.ch true 77))
 (.alt (.one (.ch true 46))
 .eps)))))
 (.seq (.one (.ch true 65))
 (.alt (.one (.ch true 77))
 .eps)))
 (.seq (.one (.ch true 80))
 (.alt (.one (.ch true 77))
 .eps)))
 (.seq (.one (.ch true 79))
 (.seq (.star true (.one (.set true true [.cls .word false])))
 (.seq (.one (.ch true 67))
 (.seq (.one (.ch true 76))
 (.seq (.one (.ch true 79))
 (.seq (.one (.ch true 67))
 (.one (.ch true 75)))))))))))
 .eps)
 (.seq (.look false (.alt (.one (.set true true [.cls .word false]))
 .eol))
 (.seq (.alt (.one (.ch true 32))
 .eps)
 (.alt (.cap 7 (.seq (.cap 8 (.alt .bol
 (.star true (.one (.set true false [.cls .space false])))))
 (.seq (.cap 9 (.alt (.alt (.alt (.alt (.alt (.one (.ch true 45))
 (.seq (.one (.ch true 226))
 (.seq (.one (.ch true 128))
 (.one (.ch true 147)))))
 (.one (.ch true 126)))
 (.seq (.one (.ch true 227))
 (.seq (.one (.ch true 128))
 (.one (.ch true 156)))))
 (.seq (.one (.ch true 116))
 (.one (.ch true 111))))
 (.one (.ch true 63))))
 (.seq (.star true (.one (.set true false [.cls .space false])))
 (.seq (.cap 10 (.seq (.one (.set true false [.cls .digit false]))
 (.alt (.seq (.one (.set true false [.cls .digit false]))
 (.alt (.seq (.one (.set true false [.cls .digit false]))
 (.alt (.one (.set true false [.cls .digit false]))
 .eps))
 .eps))
 .eps)))
 (.seq (.alt (.seq (.alt (.alt (.one (.ch true 46))
 (.one (.ch true 58)))
 (.seq (.one (.ch true 239))
 (.seq (.one (.ch true 188))
 (.one (.ch true 154)))))
 (.seq (.cap 11 (.seq (.one (.set true false [.cls .digit false]))
 (.alt (.one (.set true false [.cls .digit false]))
 .eps)))
 (.alt (.seq (.alt (.alt (.one (.ch true 46))
 (.one (.ch true 58)))
 (.seq (.one (.ch true 239))
 (.seq (.one (.ch true 188))
 (.one (.ch true 154)))))
 (.seq (.cap 12 (.seq (.one (.set true false [.cls .digit false]))
 (.alt (.one (.set true false [.cls .digit false]))
 .eps)))
 (.alt (.seq (.one (.ch true 46))
 (.cap 13 (.seq (.one (.set true false [.cls .digit false]))
 (.alt (.seq (.one (.set true false [.cls .digit false]))
 (.alt (.seq (.one (.set true false [.cls .digit false]))
 (.alt (.seq (.one (.set true false [.cls .digit false]))
 (.alt (.seq (.one (.set true false [.cls .digit false]))
 (.alt (.one (.set true false [.cls .digit false]))
 .eps))
 .eps))
 .eps))
 .eps))
 .eps))))
 .eps)))
 .eps)))
 .eps)
 (.seq (.alt (.seq (.star true (.one (.set true false [.cls .space false])))
 (.cap 14 (.alt (.alt (.alt (.alt (.seq (.one (.ch true 65))
 (.seq (.one (.ch true 46))
 (.seq (.one (.ch true 77))
 (.alt (.one (.ch true 46))
 .eps))))
 (.seq (.one (.ch true 80))
 (.seq (.one (.ch true 46))
 (.seq (.one (.ch true 77))
 (.alt (.one (.ch true 46))
 .eps)))))
 (.seq (.one (.ch true 65))
 (.alt (.one (.ch true 77))
 .eps)))
 (.seq (.one (.ch true 80))
 (.alt (.one (.ch true 77))
 .eps)))
 (.seq (.one (.ch true 79))
 (.seq (.star true (.one (.set true true [.cls .word false])))
 (.seq (.one (.ch true 67))
 (.seq (.one (.ch true 76))
 (.seq (.one (.ch true 79))
 (.seq (.one (.ch true 67))
 (.one (.ch true 75)))))))))))
 .eps)
 (.cap 15 (.wb false)))))))))
 .eps))))))))

/-- tree of `Pat.iso` -/
def iso : Re :=
 (.seq (.cap 1 (.wb false))
 (.seq (.cap 2 (.seq (.one (.set true false [.range 48 57]))
 (.seq (.one (.set true false [.range 48 57]))
 (.seq (.one (.set true false [.range 48 57]))
 (.one (.set true false [.range 48 57]))))))
 (.seq (.one (.ch true 45))
 (.seq (.cap 3 (.seq (.one (.set true false [.range 48 57]))
 (.alt (.one (.set true false [.range 48 57]))
 .eps)))
 (.seq (.one (.ch true 45))
 (.seq (.cap 4 (.seq (.one (.set true false [.range 48 57]))
 (.alt (.one (.set true false [.range 48 57]))
 .eps)))
 (.seq (.alt (.seq (.one (.ch true 84))
 (.seq (.cap 5 (.seq (.one (.set true false [.range 48 57]))
 (.alt (.one (.set true false [.range 48 57]))
 .eps)))
 (.seq (.one (.ch true 58))
 (.seq (.cap 6 (.seq (.one (.set true false [.range 48 57]))
 (.alt (.one (.set true false [.range 48 57]))
 .eps)))
 (.seq (.alt (.seq (.one (.ch true 58))
 (.seq (.cap 7 (.seq (.one (.set true false [.range 48 57]))
 (.alt (.one (.set true false [.range 48 57]))
 .eps)))
 (.alt (.seq (.one (.ch true 46))
 (.cap 8 (.seq (.one (.set true false [.cls .digit false]))
 (.alt (.seq (.one (.set true false [.cls .digit false]))
 (.alt (.seq (.one (.set true false [.cls .digit false]))
 (.alt (.one (.set true false [.cls .digit false]))
 .eps))
 .eps))
 .eps))))
 .eps)))
 .eps)
 (.alt (.alt (.one (.ch true 90))
 (.seq (.cap 9 (.seq (.one (.set true false [.one 43, .one 45]))
 (.seq (.one (.set true false [.cls .digit false]))
 (.one (.set true false [.cls .digit false])))))
 (.seq (.alt (.one (.ch true 58))
 .eps)
 (.alt (.cap 10 (.seq (.one (.set true false [.cls .digit false]))
 (.one (.set true false [.cls .digit false]))))
 .eps))))
 .eps))))))
 .eps)
 (.cap 11 (.wb false)))))))))

/-- tree of `Pat.holiday` -/
def holiday : Re :=
 (.seq (.cap 1 (.wb false))
 (.seq (.cap 2 (.alt (.alt (.alt (.alt (.alt (.alt (.alt (.alt (.alt (.alt (.alt (.seq (.one (.ch true 73))
 (.seq (.one (.ch true 110))
 (.seq (.one (.ch true 100))
 (.seq (.one (.ch true 101))
 (.seq (.one (.ch true 112))
 (.seq (.one (.ch true 101))
 (.seq (.one (.ch true 110))
 (.seq (.one (.ch true 100))
 (.seq (.one (.ch true 101))
 (.seq (.one (.ch true 110))
 (.seq (.one (.ch true 99))
 (.one (.ch true 101)))))))))))))
 (.seq (.one (.ch true 80))
 (.seq (.one (.ch true 114))
 (.seq (.one (.ch true 101))
 (.seq (.one (.ch true 115))
 (.seq (.one (.ch true 105))
 (.seq (.one (.ch true 100))
 (.seq (.one (.ch true 101))
 (.seq (.one (.ch true 110))
 (.seq (.one (.ch true 116))
 (.seq (.one (.ch true 39))
 (.one (.ch true 115)))))))))))))
 (.seq (.one (.ch true 78))
 (.seq (.one (.ch true 101))
 (.seq (.one (.ch true 119))
 (.seq (.star true (.one (.set true false [.cls .space false])))
 (.seq (.one (.ch true 89))
 (.seq (.one (.ch true 101))
 (.seq (.one (.ch true 97))
 (.seq (.one (.ch true 114))
 (.seq (.one (.ch true 39))
 (.seq (.one (.ch true 115))
 (.alt (.seq (.star true (.one (.set true false [.cls .space false])))
 (.seq (.one (.ch true 101))
 (.seq (.one (.ch true 118))
 (.one (.ch true 101)))))
 .eps))))))))))))
 (.seq (.one (.ch true 67))
 (.seq (.one (.ch true 111))
 (.seq (.one (.ch true 108))
 (.seq (.one (.ch true 117))
 (.seq (.one (.ch true 109))
 (.seq (.one (.ch true 98))
 (.seq (.one (.ch true 117))
 (.one (.ch true 115))))))))))
 (.seq (.one (.ch true 77))
 (.seq (.one (.ch true 76))
 (.one (.ch true 75)))))
 (.seq (.one (.ch true 77))
 (.seq (.one (.ch true 97))
 (.seq (.one (.ch true 114))
 (.seq (.one (.ch true 116))
 (.seq (.one (.ch true 105))
 (.seq (.one (.ch true 110))
 (.seq (.star true (.one (.set true false [.cls .space false])))
 (.seq (.one (.ch true 76))
 (.seq (.one (.ch true 117))
 (.seq (.one (.ch true 116))
 (.seq (.one (.ch true 104))
 (.seq (.one (.ch true 101))
 (.seq (.one (.ch true 114))
 (.seq (.star true (.one (.set true false [.cls .space false])))
 (.seq (.one (.ch true 75))
 (.seq (.one (.ch true 105))
 (.seq (.one (.ch true 110))
 (.seq (.one (.ch true 103))
 (.seq (.star true (.one (.set true false [.cls .space false])))
 (.alt (.alt (.seq (.one (.ch true 74))
 (.seq (.one (.ch true 117))
 (.seq (.one (.ch true 110))
 (.seq (.one (.ch true 105))
 (.seq (.one (.ch true 111))
 (.one (.ch true 114)))))))
 (.seq (.one (.ch true 74))
 (.one (.ch true 114))))
 (.seq (.one (.ch true 74))
 (.seq (.one (.ch true 110))
 (.one (.ch true 114)))))))))))))))))))))))))
 (.seq (.one (.ch true 84))
 (.seq (.one (.ch true 104))
 (.seq (.one (.ch true 97))
 (.seq (.one (.ch true 110))
 (.seq (.one (.ch true 107))
 (.seq (.one (.ch true 115))
 (.seq (.one (.ch true 103))
 (.seq (.one (.ch true 105))
 (.seq (.one (.ch true 118))
 (.seq (.one (.ch true 105))
 (.seq (.one (.ch true 110))
 (.one (.ch true 103))))))))))))))
 (.seq (.one (.ch true 77))
 (.seq (.one (.ch true 101))
 (.seq (.one (.ch true 109))
 (.seq (.one (.ch true 111))
 (.seq (.one (.ch true 114))
 (.seq (.one (.ch true 105))
 (.seq (.one (.ch true 97))
 (.one (.ch true 108))))))))))
 (.seq (.one (.ch true 76))
 (.seq (.one (.ch true 97))
 (.seq (.one (.ch true 98))
 (.seq (.one (.ch true 111))
 (.one (.ch true 114)))))))
 (.seq (.one (.ch true 86))
 (.seq (.one (.ch true 101))
 (.seq (.one (.ch true 116))
 (.seq (.one (.ch true 101))
 (.seq (.one (.ch true 114))
 (.seq (.one (.ch true 97))
 (.seq (.one (.ch true 110))
 (.alt (.one (.ch true 115))
 (.seq (.one (.ch true 92))
 (.seq (.one (.ch true 39))
 (.one (.ch true 115)))))))))))))
 (.seq (.one (.ch true 67))
 (.seq (.one (.ch true 104))
 (.seq (.one (.ch true 114))
 (.seq (.one (.ch true 105))
 (.seq (.one (.ch true 115))
 (.seq (.one (.ch true 116))
 (.seq (.one (.ch true 109))
 (.seq (.one (.ch true 97))
 (.seq (.one (.ch true 115))
 (.seq (.one (.ch true 92))
 (.seq (.star true (.one (.ch true 115)))
 (.alt (.seq (.one (.ch true 101))
 (.seq (.one (.ch true 118))
 (.one (.ch true 101))))
 .eps)))))))))))))
 (.seq (.one (.ch true 98))
 (.seq (.one (.ch true 108))
 (.seq (.one (.ch true 97))
 (.seq (.one (.ch true 99))
 (.seq (.one (.ch true 107))
 (.seq (.star true (.one (.set true false [.cls .space false])))
 (.seq (.one (.ch true 70))
 (.seq (.one (.ch true 114))
 (.seq (.one (.ch true 105))
 (.seq (.one (.ch true 100))
 (.seq (.one (.ch true 97))
 (.one (.ch true 121)))))))))))))))
 (.seq (.seq (.one (.set true false [.cls .space false]))
 (.star true (.one (.set true false [.cls .space false]))))
 (.seq (.alt (.seq (.one (.ch true 100))
 (.seq (.one (.ch true 97))
 (.one (.ch true 121))))
 .eps)
 (.cap 3 (.wb false))))))

/-- tree of `Pat.week` -/
def week : Re :=
 (.seq (.cap 1 (.wb false))
 (.seq (.cap 2 (.alt (.seq (.alt (.seq (.one (.ch true 108))
 (.seq (.one (.ch true 97))
 (.seq (.one (.ch true 115))
 (.one (.ch true 116)))))
 (.seq (.one (.ch true 110))
 (.seq (.one (.ch true 101))
 (.seq (.one (.ch true 120))
 (.one (.ch true 116))))))
 (.seq (.seq (.one (.set true false [.cls .space false]))
 (.star true (.one (.set true false [.cls .space false]))))
 (.seq (.alt (.alt (.cap 3 (.seq (.one (.set true false [.cls .digit false]))
 (.star true (.one (.set true false [.cls .digit false])))))
 (.cap 4 (.seq (.one (.set true false [.cls .word false]))
 (.seq (.one (.set true false [.cls .word false]))
 (.seq (.one (.set true false [.cls .word false]))
 (.alt (.seq (.one (.set true false [.cls .word false]))
 (.alt (.seq (.one (.set true false [.cls .word false]))
 (.alt (.seq (.one (.set true false [.cls .word false]))
 (.alt (.seq (.one (.set true false [.cls .word false]))
 (.alt (.seq (.one (.set true false [.cls .word false]))
 (.alt (.one (.set true false [.cls .word false]))
 .eps))
 .eps))
 .eps))
 .eps))
 .eps))
 .eps))))))
 .eps)
 (.seq (.star true (.one (.set true false [.cls .space false])))
 (.seq (.one (.ch true 119))
 (.seq (.one (.ch true 101))
 (.seq (.one (.ch true 101))
 (.seq (.one (.ch true 107))
 (.alt (.one (.ch true 115))
 .eps)))))))))
 (.seq (.one (.ch true 116))
 (.seq (.one (.ch true 104))
 (.seq (.one (.ch true 105))
 (.seq (.one (.ch true 115))
 (.seq (.star true (.one (.set true false [.cls .space false])))
 (.seq (.one (.ch true 119))
 (.seq (.one (.ch true 101))
 (.seq (.one (.ch true 101))
 (.one (.ch true 107))))))))))))
 (.cap 5 (.wb false))))

/-- tree of `Pat.relative` -/
def relative : Re :=
 (.seq (.cap 1 (.wb false))
 (.seq (.cap 2 (.alt (.alt (.alt (.seq (.one (.ch true 116))
 (.seq (.one (.ch true 104))
 (.seq (.one (.ch true 105))
 (.one (.ch true 115)))))
 (.seq (.one (.ch true 110))
 (.seq (.one (.ch true 101))
 (.seq (.one (.ch true 120))
 (.one (.ch true 116))))))
 (.seq (.one (.ch true 108))
 (.seq (.one (.ch true 97))
 (.seq (.one (.ch true 115))
 (.one (.ch true 116))))))
 (.seq (.one (.ch true 112))
 (.seq (.one (.ch true 97))
 (.seq (.one (.ch true 115))
 (.one (.ch true 116)))))))
 (.seq (.star true (.one (.set true false [.cls .space false])))
 (.seq (.alt (.cap 3 (.alt (.alt (.alt (.seq (.one (.ch true 32))
 (.alt (.alt (.alt (.alt (.alt (.alt (.alt (.alt (.alt (.alt (.alt (.seq (.one (.ch true 111))
 (.seq (.one (.ch true 110))
 (.one (.ch true 101))))
 (.seq (.one (.ch true 116))
 (.seq (.one (.ch true 119))
 (.one (.ch true 111)))))
 (.seq (.one (.ch true 116))
 (.seq (.one (.ch true 104))
 (.seq (.one (.ch true 114))
 (.seq (.one (.ch true 101))
 (.one (.ch true 101)))))))
 (.seq (.one (.ch true 102))
 (.seq (.one (.ch true 111))
 (.seq (.one (.ch true 117))
 (.one (.ch true 114))))))
 (.seq (.one (.ch true 102))
 (.seq (.one (.ch true 105))
 (.seq (.one (.ch true 118))
 (.one (.ch true 101))))))
 (.seq (.one (.ch true 115))
 (.seq (.one (.ch true 105))
 (.one (.ch true 120)))))
 (.seq (.one (.ch true 115))
 (.seq (.one (.ch true 101))
 (.seq (.one (.ch true 118))
 (.seq (.one (.ch true 101))
 (.one (.ch true 110)))))))
 (.seq (.one (.ch true 101))
 (.seq (.one (.ch true 105))
 (.seq (.one (.ch true 103))
 (.seq (.one (.ch true 104))
 (.one (.ch true 116)))))))
 (.seq (.one (.ch true 110))
 (.seq (.one (.ch true 105))
 (.seq (.one (.ch true 110))
 (.one (.ch true 101))))))
 (.seq (.one (.ch true 116))
 (.seq (.one (.ch true 101))
 (.one (.ch true 110)))))
 (.seq (.one (.ch true 101))
 (.seq (.one (.ch true 108))
 (.seq (.one (.ch true 101))
 (.seq (.one (.ch true 118))
 (.seq (.one (.ch true 101))
 (.one (.ch true 110))))))))
 (.seq (.one (.ch true 116))
 (.seq (.one (.ch true 119))
 (.seq (.one (.ch true 101))
 (.seq (.one (.ch true 108))
 (.seq (.one (.ch true 118))
 (.one (.ch true 101)))))))))
 (.seq (.one (.set true false [.range 48 57]))
 (.star true (.one (.set true false [.range 48 57])))))
 (.seq (.one (.ch true 102))
 (.seq (.one (.ch true 101))
 (.one (.ch true 119)))))
 (.seq (.one (.ch true 104))
 (.seq (.one (.ch true 97))
 (.seq (.one (.ch true 108))
 (.seq (.one (.ch true 102))
 (.alt (.seq (.star true (.one (.set true false [.cls .space false])))
 (.seq (.one (.ch true 97))
 (.alt (.one (.ch true 110))
 .eps)))
 .eps)))))))
 .eps)
 (.seq (.star true (.one (.set true false [.cls .space false])))
 (.seq (.cap 4 (.alt (.alt (.alt (.alt (.alt (.alt (.seq (.one (.ch true 115))
 (.seq (.one (.ch true 101))
 (.seq (.one (.ch true 99))
 (.seq (.one (.ch true 111))
 (.seq (.one (.ch true 110))
 (.seq (.one (.ch true 100))
 (.alt (.one (.ch true 115))
 .eps)))))))
 (.seq (.one (.ch true 109))
 (.seq (.one (.ch true 105))
 (.seq (.one (.ch true 110))
 (.seq (.alt (.seq (.one (.ch true 117))
 (.seq (.one (.ch true 116))
 (.one (.ch true 101))))
 .eps)
 (.alt (.one (.ch true 115))
 .eps))))))
 (.seq (.one (.ch true 104))
 (.seq (.one (.ch true 111))
 (.seq (.one (.ch true 117))
 (.seq (.one (.ch true 114))
 (.alt (.one (.ch true 115))
 .eps))))))
 (.seq (.one (.ch true 100))
 (.seq (.one (.ch true 97))
 (.seq (.one (.ch true 121))
 (.alt (.one (.ch true 115))
 .eps)))))
 (.seq (.one (.ch true 119))
 (.seq (.one (.ch true 101))
 (.seq (.one (.ch true 101))
 (.seq (.one (.ch true 107))
 (.alt (.one (.ch true 115))
 .eps))))))
 (.seq (.one (.ch true 109))
 (.seq (.one (.ch true 111))
 (.seq (.one (.ch true 110))
 (.seq (.one (.ch true 116))
 (.seq (.one (.ch true 104))
 (.alt (.one (.ch true 115))
 .eps)))))))
 (.seq (.one (.ch true 121))
 (.seq (.one (.ch true 101))
 (.seq (.one (.ch true 97))
 (.seq (.one (.ch true 114))
 (.alt (.one (.ch true 115))
 .eps)))))))
 (.seq (.look false (.star true (.one (.set true false [.cls .space false]))))
 (.cap 5 (.wb false)))))))))

/-- tree of `Pat.tzName` -/
def tzName : Re :=
 (.seq .bol
 (.seq (.star true (.one (.set true false [.cls .space false])))
 (.seq (.alt (.one (.ch true 40))
 .eps)
 (.seq (.cap 1 (.seq (.one (.set true false [.range 65 90]))
 (.seq (.one (.set true false [.range 65 90]))
 (.alt (.seq (.one (.set true false [.range 65 90]))
 (.alt (.one (.set true false [.range 65 90]))
 .eps))
 .eps))))
 (.seq (.alt (.one (.ch true 41))
 .eps)
 (.look false (.alt (.one (.set true true [.cls .word false]))
 .eol)))))))

/-- tree of `Pat.connector` -/
def connector : Re :=
 (.alt (.cap 1 (.alt (.alt (.alt (.alt (.alt (.one (.ch true 84))
 (.seq (.one (.ch true 97))
 (.one (.ch true 116))))
 (.seq (.one (.ch true 111))
 (.one (.ch true 110))))
 (.seq (.one (.ch true 111))
 (.one (.ch true 102))))
 (.one (.ch true 44)))
 (.one (.ch true 45))))
 .eps)

/-- tree of `Pat.rangeTo` -/
def rangeTo : Re :=
 (.seq (.star true (.one (.set false false [.cls .space false])))
 (.seq (.cap 1 (.alt (.alt (.alt (.seq (.one (.ch false 97))
 (.seq (.one (.ch false 110))
 (.one (.ch false 100))))
 (.seq (.one (.ch false 116))
 (.one (.ch false 111))))
 (.seq (.one (.ch false 116))
 (.seq (.one (.ch false 104))
 (.seq (.one (.ch false 114))
 (.seq (.one (.ch false 111))
 (.seq (.one (.ch false 117))
 (.seq (.one (.ch false 103))
 (.one (.ch false 104)))))))))
 (.one (.ch false 45))))
 (.star true (.one (.set false false [.cls .space false])))))

/-- tree of `Pat.toGuard` -/
def toGuard : Re :=
 (.seq .bol
 (.seq (.star true (.one (.set false false [.cls .space false])))
 (.seq (.cap 1 (.alt (.one (.ch false 43))
 (.one (.ch false 45))))
 (.seq (.star true (.one (.set false false [.cls .space false])))
 (.seq (.seq (.one (.set false false [.cls .digit false]))
 (.seq (.one (.set false false [.cls .digit false]))
 (.seq (.one (.set false false [.cls .digit false]))
 (.alt (.one (.set false false [.cls .digit false]))
 .eps))))
 .eol)))))

/-- tree of `Pat.lastNight` -/
def lastNight : Re :=
 (.seq (.one (.ch true 108))
 (.seq (.one (.ch true 97))
 (.seq (.one (.ch true 115))
 (.seq (.one (.ch true 116))
 (.seq (.star true (.one (.set true false [.cls .space false])))
 (.seq (.one (.ch true 110))
 (.seq (.one (.ch true 105))
 (.seq (.one (.ch true 103))
 (.seq (.one (.ch true 104))
 (.one (.ch true 116)))))))))))

/-- tree of `Pat.dwmy` -/
def dwmy : Re :=
 (.alt (.alt (.alt (.seq (.one (.ch false 100))
 (.seq (.one (.ch false 97))
 (.one (.ch false 121))))
 (.seq (.one (.ch false 119))
 (.seq (.one (.ch false 101))
 (.seq (.one (.ch false 101))
 (.one (.ch false 107))))))
 (.seq (.one (.ch false 109))
 (.seq (.one (.ch false 111))
 (.seq (.one (.ch false 110))
 (.seq (.one (.ch false 116))
 (.one (.ch false 104)))))))
 (.seq (.one (.ch false 121))
 (.seq (.one (.ch false 101))
 (.seq (.one (.ch false 97))
 (.one (.ch false 114))))))

/-- tree of `Pat.dwmy` -/
def dwmyI : Re :=
 (.alt (.alt (.alt (.seq (.one (.ch true 100))
 (.seq (.one (.ch true 97))
 (.one (.ch true 121))))
 (.seq (.one (.ch true 119))
 (.seq (.one (.ch true 101))
 (.seq (.one (.ch true 101))
 (.one (.ch true 107))))))
 (.seq (.one (.ch true 109))
 (.seq (.one (.ch true 111))
 (.seq (.one (.ch true 110))
 (.seq (.one (.ch true 116))
 (.one (.ch true 104)))))))
 (.seq (.one (.ch true 121))
 (.seq (.one (.ch true 101))
 (.seq (.one (.ch true 97))
 (.one (.ch true 114))))))

/-- tree of `Pat.collapse` -/
def collapse : Re :=
 (.alt (.alt (.seq .bol
 (.seq (.one (.ch false 32))
 (.star true (.one (.ch false 32)))))
 (.seq (.seq (.one (.ch false 32))
 (.star true (.one (.ch false 32))))
 .eol))
 (.seq (.cap 1 (.one (.ch false 32)))
 (.seq (.one (.ch false 32))
 (.star true (.one (.ch false 32))))))

/-- tree of `Pat.timeUnit` -/
def timeUnit : Re :=
 (.seq (.cap 1 (.alt (.alt (.alt (.alt (.alt (.alt (.alt (.alt (.alt (.alt (.alt (.alt (.alt (.alt (.seq (.one (.ch true 101))
 (.seq (.one (.ch true 105))
 (.seq (.one (.ch true 103))
 (.seq (.one (.ch true 104))
 (.one (.ch true 116))))))
 (.seq (.one (.ch true 101))
 (.seq (.one (.ch true 108))
 (.seq (.one (.ch true 101))
 (.seq (.one (.ch true 118))
 (.seq (.one (.ch true 101))
 (.one (.ch true 110))))))))
 (.seq (.one (.ch true 102))
 (.seq (.one (.ch true 105))
 (.seq (.one (.ch true 118))
 (.one (.ch true 101))))))
 (.seq (.one (.ch true 102))
 (.seq (.one (.ch true 111))
 (.seq (.one (.ch true 117))
 (.one (.ch true 114))))))
 (.seq (.one (.ch true 110))
 (.seq (.one (.ch true 105))
 (.seq (.one (.ch true 110))
 (.one (.ch true 101))))))
 (.seq (.one (.ch true 111))
 (.seq (.one (.ch true 110))
 (.one (.ch true 101)))))
 (.seq (.one (.ch true 115))
 (.seq (.one (.ch true 101))
 (.seq (.one (.ch true 118))
 (.seq (.one (.ch true 101))
 (.one (.ch true 110)))))))
 (.seq (.one (.ch true 115))
 (.seq (.one (.ch true 105))
 (.one (.ch true 120)))))
 (.seq (.one (.ch true 116))
 (.seq (.one (.ch true 101))
 (.one (.ch true 110)))))
 (.seq (.one (.ch true 116))
 (.seq (.one (.ch true 104))
 (.seq (.one (.ch true 114))
 (.seq (.one (.ch true 101))
 (.one (.ch true 101)))))))
 (.seq (.one (.ch true 116))
 (.seq (.one (.ch true 119))
 (.seq (.one (.ch true 101))
 (.seq (.one (.ch true 108))
 (.seq (.one (.ch true 118))
 (.one (.ch true 101))))))))
 (.seq (.one (.ch true 116))
 (.seq (.one (.ch true 119))
 (.one (.ch true 111)))))
 (.seq (.one (.set true false [.range 48 57]))
 (.star true (.one (.set true false [.range 48 57])))))
 (.seq (.one (.ch true 97))
 (.seq (.alt (.one (.ch true 110))
 .eps)
 (.alt (.seq (.star true (.one (.set true false [.cls .space false])))
 (.seq (.one (.ch true 102))
 (.seq (.one (.ch true 101))
 (.one (.ch true 119)))))
 .eps))))
 (.seq (.one (.ch true 104))
 (.seq (.one (.ch true 97))
 (.seq (.one (.ch true 108))
 (.seq (.one (.ch true 102))
 (.alt (.seq (.star true (.one (.set true false [.cls .space false])))
 (.seq (.one (.ch true 97))
 (.alt (.one (.ch true 110))
 .eps)))
 .eps)))))))
 (.seq (.star true (.one (.set true false [.cls .space false])))
 (.seq (.cap 2 (.alt (.alt (.alt (.alt (.alt (.alt (.seq (.one (.ch true 115))
 (.seq (.one (.ch true 101))
 (.seq (.one (.ch true 99))
 (.alt (.seq (.one (.ch true 111))
 (.seq (.one (.ch true 110))
 (.seq (.one (.ch true 100))
 (.alt (.one (.ch true 115))
 .eps))))
 .eps))))
 (.seq (.one (.ch true 109))
 (.seq (.one (.ch true 105))
 (.seq (.one (.ch true 110))
 (.seq (.alt (.seq (.one (.ch true 117))
 (.seq (.one (.ch true 116))
 (.one (.ch true 101))))
 .eps)
 (.alt (.one (.ch true 115))
 .eps))))))
 (.seq (.one (.ch true 104))
 (.seq (.one (.ch true 111))
 (.seq (.one (.ch true 117))
 (.seq (.one (.ch true 114))
 (.alt (.one (.ch true 115))
 .eps))))))
 (.seq (.one (.ch true 119))
 (.seq (.one (.ch true 101))
 (.seq (.one (.ch true 101))
 (.seq (.one (.ch true 107))
 (.alt (.one (.ch true 115))
 .eps))))))
 (.seq (.one (.ch true 100))
 (.seq (.one (.ch true 97))
 (.seq (.one (.ch true 121))
 (.alt (.one (.ch true 115))
 .eps)))))
 (.seq (.one (.ch true 109))
 (.seq (.one (.ch true 111))
 (.seq (.one (.ch true 110))
 (.seq (.one (.ch true 116))
 (.seq (.one (.ch true 104))
 (.alt (.one (.ch true 115))
 .eps)))))))
 (.seq (.one (.ch true 121))
 (.seq (.one (.ch true 101))
 (.seq (.one (.ch true 97))
 (.seq (.one (.ch true 114))
 (.alt (.one (.ch true 115))
 .eps)))))))
 (.star true (.one (.set true false [.cls .space false]))))))

theorem compile_casualTime : compile true Pat.casualTime = some casualTime := by decide +kernel

theorem compile_deadline : compile true Pat.deadline = some deadline := by decide +kernel

theorem compile_casualDate : compile true Pat.casualDate = some casualDate := by decide +kernel

theorem compile_middleEndian : compile true Pat.middleEndian = some middleEndian := by decide +kernel

theorem compile_timeLater : compile true Pat.timeLater = some timeLater := by decide +kernel

theorem compile_monthName : compile true Pat.monthName = some monthName := by decide +kernel

theorem compile_timeAgo : compile true Pat.timeAgo = some timeAgo := by decide +kernel

theorem compile_timeExpr : compile true Pat.timeExpr = some timeExpr := by decide +kernel

theorem compile_iso : compile true Pat.iso = some iso := by decide +kernel

theorem compile_holiday : compile true Pat.holiday = some holiday := by decide +kernel

theorem compile_week : compile true Pat.week = some week := by decide +kernel

theorem compile_relative : compile true Pat.relative = some relative := by decide +kernel

theorem compile_tzName : compile true Pat.tzName = some tzName := by decide +kernel

theorem compile_connector : compile true Pat.connector = some connector := by decide +kernel

theorem compile_rangeTo : compile false Pat.rangeTo = some rangeTo := by decide +kernel

theorem compile_toGuard : compile false Pat.toGuard = some toGuard := by decide +kernel

theorem compile_lastNight : compile true Pat.lastNight = some lastNight := by decide +kernel

theorem compile_dwmy : compile false Pat.dwmy = some dwmy := by decide +kernel

theorem compile_dwmyI : compile true Pat.dwmy = some dwmyI := by decide +kernel

theorem compile_collapse : compile false Pat.collapse = some collapse := by decide +kernel

theorem compile_timeUnit : compile true Pat.timeUnit = some timeUnit := by decide +kernel

/-- The weekday pattern has unbalanced parentheses: `std::regex` throws. -/
theorem compile_dayOfWeek : compile true Pat.dayOfWeek = none := by decide +kernel

end Chrono.Ast
