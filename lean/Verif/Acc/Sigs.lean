import Verif.Access
/-! Generated by tools/accgen.py from the headers and src; do not edit by hand. -/
set_option maxRecDepth 100000
namespace Cglm.Acc

/-- the pointer parameters of every function, in the order of the names in `tools/accgen.py`'s reading of the headers; a parameter
that is an array of run-time length stands for any one of its elements -/
def sigs : Tree (List Param) :=
 .node 1166 []
 (.node 583 [⟨⟨64, [.mat, .vec]⟩, true⟩]
  (.node 291 [⟨⟨8, []⟩, false⟩, ⟨⟨8, []⟩, false⟩, ⟨⟨8, []⟩, true⟩]
   (.node 145 [⟨⟨16, [.vec]⟩, false⟩, ⟨⟨16, [.vec]⟩, false⟩, ⟨⟨16, [.vec]⟩, true⟩]
    (.node 72 [⟨⟨8, []⟩, false⟩, ⟨⟨8, []⟩, true⟩]
     (.node 36 [⟨⟨8, []⟩, false⟩, ⟨⟨8, []⟩, true⟩]
      (.node 18 []
       (.node 9 []
        (.node 4 [⟨⟨4, []⟩, true⟩]
         (.node 2 []
          (.node 1 []
           (.node 0 [] .leaf .leaf)
           .leaf)
          (.node 3 [] .leaf .leaf))
         (.node 7 []
          (.node 6 []
           (.node 5 [⟨⟨4, []⟩, true⟩] .leaf .leaf)
           .leaf)
          (.node 8 [] .leaf .leaf)))
        (.node 14 []
         (.node 12 []
          (.node 11 []
           (.node 10 [] .leaf .leaf)
           .leaf)
          (.node 13 [] .leaf .leaf))
         (.node 16 []
          (.node 15 [] .leaf .leaf)
          (.node 17 [] .leaf .leaf))))
       (.node 27 [⟨⟨8, []⟩, false⟩]
        (.node 23 [⟨⟨4, []⟩, true⟩, ⟨⟨4, []⟩, true⟩]
         (.node 21 []
          (.node 20 []
           (.node 19 [] .leaf .leaf)
           .leaf)
          (.node 22 [] .leaf .leaf))
         (.node 25 [⟨⟨8, []⟩, false⟩]
          (.node 24 [⟨⟨8, []⟩, true⟩] .leaf .leaf)
          (.node 26 [⟨⟨8, []⟩, false⟩] .leaf .leaf)))
        (.node 32 [⟨⟨8, []⟩, false⟩]
         (.node 30 [⟨⟨8, []⟩, false⟩]
          (.node 29 [⟨⟨8, []⟩, false⟩, ⟨⟨8, []⟩, false⟩]
           (.node 28 [⟨⟨8, []⟩, false⟩, ⟨⟨8, []⟩, false⟩] .leaf .leaf)
           .leaf)
          (.node 31 [⟨⟨8, []⟩, false⟩] .leaf .leaf))
         (.node 34 [⟨⟨8, []⟩, false⟩]
          (.node 33 [⟨⟨8, []⟩, false⟩] .leaf .leaf)
          (.node 35 [⟨⟨8, []⟩, false⟩, ⟨⟨8, []⟩, true⟩] .leaf .leaf)))))
      (.node 54 [⟨⟨8, []⟩, false⟩, ⟨⟨8, []⟩, false⟩, ⟨⟨8, []⟩, true⟩]
       (.node 45 [⟨⟨8, []⟩, false⟩, ⟨⟨8, []⟩, true⟩]
        (.node 41 [⟨⟨8, []⟩, false⟩, ⟨⟨8, []⟩, false⟩, ⟨⟨8, []⟩, true⟩]
         (.node 39 [⟨⟨8, []⟩, false⟩, ⟨⟨8, []⟩, true⟩]
          (.node 38 [⟨⟨8, []⟩, false⟩, ⟨⟨8, []⟩, true⟩]
           (.node 37 [⟨⟨8, []⟩, false⟩, ⟨⟨8, []⟩, true⟩] .leaf .leaf)
           .leaf)
          (.node 40 [⟨⟨8, []⟩, false⟩, ⟨⟨8, []⟩, true⟩] .leaf .leaf))
         (.node 43 [⟨⟨8, []⟩, false⟩, ⟨⟨8, []⟩, true⟩]
          (.node 42 [⟨⟨8, []⟩, false⟩, ⟨⟨8, []⟩, true⟩] .leaf .leaf)
          (.node 44 [⟨⟨8, []⟩, false⟩, ⟨⟨8, []⟩, false⟩, ⟨⟨8, []⟩, true⟩] .leaf .leaf)))
        (.node 50 [⟨⟨8, []⟩, false⟩, ⟨⟨8, []⟩, false⟩]
         (.node 48 [⟨⟨8, []⟩, true⟩]
          (.node 47 [⟨⟨8, []⟩, false⟩, ⟨⟨8, []⟩, true⟩]
           (.node 46 [⟨⟨8, []⟩, false⟩, ⟨⟨8, []⟩, true⟩] .leaf .leaf)
           .leaf)
          (.node 49 [⟨⟨8, []⟩, true⟩] .leaf .leaf))
         (.node 52 [⟨⟨8, []⟩, false⟩]
          (.node 51 [⟨⟨8, []⟩, false⟩, ⟨⟨8, []⟩, false⟩] .leaf .leaf)
          (.node 53 [⟨⟨8, []⟩, false⟩] .leaf .leaf))))
       (.node 63 [⟨⟨8, []⟩, false⟩, ⟨⟨8, []⟩, false⟩, ⟨⟨8, []⟩, true⟩]
        (.node 59 [⟨⟨8, []⟩, false⟩, ⟨⟨8, []⟩, true⟩]
         (.node 57 [⟨⟨8, []⟩, false⟩, ⟨⟨8, []⟩, true⟩]
          (.node 56 [⟨⟨8, []⟩, false⟩, ⟨⟨8, []⟩, false⟩, ⟨⟨8, []⟩, true⟩]
           (.node 55 [⟨⟨8, []⟩, false⟩, ⟨⟨8, []⟩, true⟩] .leaf .leaf)
           .leaf)
          (.node 58 [⟨⟨8, []⟩, false⟩, ⟨⟨8, []⟩, false⟩, ⟨⟨8, []⟩, true⟩] .leaf .leaf))
         (.node 61 [⟨⟨8, []⟩, false⟩, ⟨⟨8, []⟩, false⟩, ⟨⟨8, []⟩, true⟩]
          (.node 60 [⟨⟨8, []⟩, false⟩, ⟨⟨8, []⟩, true⟩] .leaf .leaf)
          (.node 62 [⟨⟨8, []⟩, false⟩, ⟨⟨8, []⟩, true⟩] .leaf .leaf)))
        (.node 68 [⟨⟨8, []⟩, false⟩, ⟨⟨8, []⟩, false⟩, ⟨⟨8, []⟩, true⟩]
         (.node 66 [⟨⟨8, []⟩, false⟩, ⟨⟨8, []⟩, true⟩]
          (.node 65 [⟨⟨8, []⟩, false⟩, ⟨⟨8, []⟩, false⟩, ⟨⟨8, []⟩, true⟩]
           (.node 64 [⟨⟨8, []⟩, false⟩, ⟨⟨8, []⟩, false⟩, ⟨⟨8, []⟩, true⟩] .leaf .leaf)
           .leaf)
          (.node 67 [⟨⟨8, []⟩, false⟩, ⟨⟨8, []⟩, false⟩, ⟨⟨8, []⟩, true⟩] .leaf .leaf))
         (.node 70 [⟨⟨8, []⟩, false⟩, ⟨⟨8, []⟩, false⟩, ⟨⟨8, []⟩, true⟩]
          (.node 69 [⟨⟨8, []⟩, false⟩, ⟨⟨8, []⟩, false⟩, ⟨⟨8, []⟩, true⟩] .leaf .leaf)
          (.node 71 [⟨⟨8, []⟩, false⟩, ⟨⟨8, []⟩, false⟩, ⟨⟨8, []⟩, true⟩] .leaf .leaf))))))
     (.node 109 [⟨⟨12, []⟩, false⟩, ⟨⟨12, []⟩, true⟩]
      (.node 91 [⟨⟨8, []⟩, false⟩, ⟨⟨8, []⟩, false⟩, ⟨⟨8, []⟩, true⟩]
       (.node 82 [⟨⟨8, []⟩, false⟩, ⟨⟨8, []⟩, false⟩]
        (.node 77 [⟨⟨8, []⟩, true⟩]
         (.node 75 [⟨⟨8, []⟩, false⟩, ⟨⟨8, []⟩, true⟩]
          (.node 74 [⟨⟨8, []⟩, false⟩, ⟨⟨8, []⟩, false⟩, ⟨⟨8, []⟩, true⟩]
           (.node 73 [⟨⟨8, []⟩, false⟩, ⟨⟨8, []⟩, false⟩, ⟨⟨8, []⟩, true⟩] .leaf .leaf)
           .leaf)
          (.node 76 [⟨⟨8, []⟩, true⟩] .leaf .leaf))
         (.node 80 [⟨⟨8, []⟩, false⟩, ⟨⟨8, []⟩, false⟩, ⟨⟨8, []⟩, true⟩]
          (.node 79 [⟨⟨8, []⟩, false⟩, ⟨⟨8, []⟩, true⟩]
           (.node 78 [⟨⟨8, []⟩, false⟩, ⟨⟨8, []⟩, true⟩] .leaf .leaf)
           .leaf)
          (.node 81 [⟨⟨8, []⟩, false⟩, ⟨⟨8, []⟩, false⟩] .leaf .leaf)))
        (.node 87 [⟨⟨8, []⟩, false⟩, ⟨⟨8, []⟩, false⟩, ⟨⟨8, []⟩, true⟩]
         (.node 85 [⟨⟨8, []⟩, true⟩]
          (.node 84 [⟨⟨8, []⟩, false⟩, ⟨⟨8, []⟩, false⟩, ⟨⟨8, []⟩, true⟩]
           (.node 83 [⟨⟨8, []⟩, false⟩, ⟨⟨8, []⟩, false⟩, ⟨⟨8, []⟩, true⟩] .leaf .leaf)
           .leaf)
          (.node 86 [⟨⟨8, []⟩, false⟩, ⟨⟨8, []⟩, true⟩] .leaf .leaf))
         (.node 89 [⟨⟨8, []⟩, false⟩, ⟨⟨8, []⟩, true⟩]
          (.node 88 [⟨⟨8, []⟩, false⟩, ⟨⟨8, []⟩, false⟩, ⟨⟨8, []⟩, true⟩] .leaf .leaf)
          (.node 90 [⟨⟨8, []⟩, false⟩, ⟨⟨8, []⟩, false⟩, ⟨⟨8, []⟩, true⟩] .leaf .leaf))))
       (.node 100 [⟨⟨12, []⟩, false⟩]
        (.node 96 [⟨⟨12, []⟩, false⟩]
         (.node 94 [⟨⟨12, []⟩, false⟩]
          (.node 93 [⟨⟨12, []⟩, true⟩]
           (.node 92 [⟨⟨12, []⟩, true⟩] .leaf .leaf)
           .leaf)
          (.node 95 [⟨⟨12, []⟩, false⟩] .leaf .leaf))
         (.node 98 [⟨⟨12, []⟩, false⟩, ⟨⟨12, []⟩, false⟩]
          (.node 97 [⟨⟨12, []⟩, false⟩, ⟨⟨12, []⟩, false⟩] .leaf .leaf)
          (.node 99 [⟨⟨12, []⟩, false⟩] .leaf .leaf)))
        (.node 105 [⟨⟨12, []⟩, false⟩, ⟨⟨12, []⟩, true⟩]
         (.node 103 [⟨⟨12, []⟩, false⟩]
          (.node 102 [⟨⟨12, []⟩, false⟩]
           (.node 101 [⟨⟨12, []⟩, false⟩] .leaf .leaf)
           .leaf)
          (.node 104 [⟨⟨12, []⟩, false⟩, ⟨⟨12, []⟩, true⟩] .leaf .leaf))
         (.node 107 [⟨⟨12, []⟩, false⟩, ⟨⟨12, []⟩, true⟩]
          (.node 106 [⟨⟨12, []⟩, false⟩, ⟨⟨12, []⟩, true⟩] .leaf .leaf)
          (.node 108 [⟨⟨12, []⟩, false⟩, ⟨⟨12, []⟩, true⟩] .leaf .leaf)))))
      (.node 127 [⟨⟨16, [.vec]⟩, false⟩, ⟨⟨16, [.vec]⟩, true⟩]
       (.node 118 [⟨⟨16, [.vec]⟩, false⟩, ⟨⟨16, [.vec]⟩, false⟩]
        (.node 114 [⟨⟨16, [.vec]⟩, true⟩]
         (.node 112 [⟨⟨12, []⟩, false⟩, ⟨⟨12, []⟩, true⟩]
          (.node 111 [⟨⟨12, []⟩, false⟩]
           (.node 110 [⟨⟨12, []⟩, false⟩, ⟨⟨12, []⟩, true⟩] .leaf .leaf)
           .leaf)
          (.node 113 [⟨⟨16, [.vec]⟩, true⟩] .leaf .leaf))
         (.node 116 [⟨⟨16, [.vec]⟩, false⟩]
          (.node 115 [⟨⟨16, [.vec]⟩, false⟩] .leaf .leaf)
          (.node 117 [⟨⟨16, [.vec]⟩, false⟩] .leaf .leaf)))
        (.node 123 [⟨⟨16, [.vec]⟩, false⟩]
         (.node 121 [⟨⟨16, [.vec]⟩, false⟩]
          (.node 120 [⟨⟨16, [.vec]⟩, false⟩]
           (.node 119 [⟨⟨16, [.vec]⟩, false⟩, ⟨⟨16, [.vec]⟩, false⟩] .leaf .leaf)
           .leaf)
          (.node 122 [⟨⟨16, [.vec]⟩, false⟩] .leaf .leaf))
         (.node 125 [⟨⟨16, [.vec]⟩, false⟩, ⟨⟨16, [.vec]⟩, true⟩]
          (.node 124 [⟨⟨16, [.vec]⟩, false⟩] .leaf .leaf)
          (.node 126 [⟨⟨16, [.vec]⟩, false⟩, ⟨⟨16, [.vec]⟩, true⟩] .leaf .leaf))))
       (.node 136 [⟨⟨16, [.vec]⟩, false⟩, ⟨⟨16, [.vec]⟩, true⟩]
        (.node 132 [⟨⟨16, [.vec]⟩, false⟩]
         (.node 130 [⟨⟨16, [.vec]⟩, false⟩, ⟨⟨16, [.vec]⟩, true⟩]
          (.node 129 [⟨⟨16, [.vec]⟩, false⟩, ⟨⟨16, [.vec]⟩, true⟩]
           (.node 128 [⟨⟨16, [.vec]⟩, false⟩, ⟨⟨16, [.vec]⟩, true⟩] .leaf .leaf)
           .leaf)
          (.node 131 [⟨⟨16, [.vec]⟩, false⟩, ⟨⟨16, [.vec]⟩, true⟩] .leaf .leaf))
         (.node 134 [⟨⟨12, []⟩, false⟩, ⟨⟨16, [.vec]⟩, true⟩]
          (.node 133 [⟨⟨16, [.vec]⟩, false⟩, ⟨⟨16, [.vec]⟩, true⟩] .leaf .leaf)
          (.node 135 [⟨⟨16, [.vec]⟩, false⟩, ⟨⟨12, []⟩, true⟩] .leaf .leaf)))
        (.node 141 [⟨⟨16, [.vec]⟩, false⟩]
         (.node 139 [⟨⟨16, [.vec]⟩, true⟩]
          (.node 138 [⟨⟨16, [.vec]⟩, true⟩]
           (.node 137 [⟨⟨16, [.vec]⟩, false⟩, ⟨⟨16, [.vec]⟩, true⟩] .leaf .leaf)
           .leaf)
          (.node 140 [⟨⟨16, [.vec]⟩, false⟩, ⟨⟨16, [.vec]⟩, false⟩] .leaf .leaf))
         (.node 143 [⟨⟨16, [.vec]⟩, false⟩]
          (.node 142 [⟨⟨16, [.vec]⟩, false⟩] .leaf .leaf)
          (.node 144 [⟨⟨16, [.vec]⟩, false⟩] .leaf .leaf)))))))
    (.node 218 [⟨⟨12, []⟩, false⟩, ⟨⟨12, []⟩, false⟩, ⟨⟨12, []⟩, true⟩]
     (.node 182 [⟨⟨16, [.vec]⟩, false⟩, ⟨⟨16, [.vec]⟩, false⟩, ⟨⟨16, [.vec]⟩, true⟩]
      (.node 164 [⟨⟨16, [.vec]⟩, false⟩, ⟨⟨16, [.vec]⟩, false⟩, ⟨⟨16, [.vec]⟩, true⟩]
       (.node 155 [⟨⟨16, [.vec]⟩, false⟩, ⟨⟨16, [.vec]⟩, false⟩, ⟨⟨16, [.vec]⟩, true⟩]
        (.node 150 [⟨⟨16, [.vec]⟩, false⟩, ⟨⟨16, [.vec]⟩, true⟩]
         (.node 148 [⟨⟨16, [.vec]⟩, false⟩, ⟨⟨16, [.vec]⟩, true⟩]
          (.node 147 [⟨⟨16, [.vec]⟩, false⟩, ⟨⟨16, [.vec]⟩, false⟩, ⟨⟨16, [.vec]⟩, true⟩]
           (.node 146 [⟨⟨16, [.vec]⟩, false⟩, ⟨⟨16, [.vec]⟩, true⟩] .leaf .leaf)
           .leaf)
          (.node 149 [⟨⟨16, [.vec]⟩, false⟩, ⟨⟨16, [.vec]⟩, false⟩, ⟨⟨16, [.vec]⟩, true⟩] .leaf .leaf))
         (.node 153 [⟨⟨16, [.vec]⟩, false⟩, ⟨⟨16, [.vec]⟩, true⟩]
          (.node 152 [⟨⟨16, [.vec]⟩, false⟩, ⟨⟨16, [.vec]⟩, false⟩, ⟨⟨16, [.vec]⟩, true⟩]
           (.node 151 [⟨⟨16, [.vec]⟩, false⟩, ⟨⟨16, [.vec]⟩, true⟩] .leaf .leaf)
           .leaf)
          (.node 154 [⟨⟨16, [.vec]⟩, false⟩, ⟨⟨16, [.vec]⟩, false⟩, ⟨⟨16, [.vec]⟩, true⟩] .leaf .leaf)))
        (.node 160 [⟨⟨16, [.vec]⟩, false⟩, ⟨⟨16, [.vec]⟩, false⟩, ⟨⟨16, [.vec]⟩, true⟩]
         (.node 158 [⟨⟨16, [.vec]⟩, false⟩, ⟨⟨16, [.vec]⟩, false⟩, ⟨⟨16, [.vec]⟩, true⟩]
          (.node 157 [⟨⟨16, [.vec]⟩, false⟩, ⟨⟨16, [.vec]⟩, true⟩]
           (.node 156 [⟨⟨16, [.vec]⟩, false⟩, ⟨⟨16, [.vec]⟩, false⟩, ⟨⟨16, [.vec]⟩, true⟩] .leaf .leaf)
           .leaf)
          (.node 159 [⟨⟨16, [.vec]⟩, false⟩, ⟨⟨16, [.vec]⟩, false⟩, ⟨⟨16, [.vec]⟩, true⟩] .leaf .leaf))
         (.node 162 [⟨⟨16, [.vec]⟩, false⟩, ⟨⟨16, [.vec]⟩, false⟩, ⟨⟨16, [.vec]⟩, true⟩]
          (.node 161 [⟨⟨16, [.vec]⟩, false⟩, ⟨⟨16, [.vec]⟩, false⟩, ⟨⟨16, [.vec]⟩, true⟩] .leaf .leaf)
          (.node 163 [⟨⟨16, [.vec]⟩, false⟩, ⟨⟨16, [.vec]⟩, true⟩] .leaf .leaf))))
       (.node 173 [⟨⟨16, [.vec]⟩, false⟩, ⟨⟨16, [.vec]⟩, false⟩, ⟨⟨16, [.vec]⟩, true⟩]
        (.node 169 [⟨⟨16, [.vec]⟩, true⟩]
         (.node 167 [⟨⟨16, [.vec]⟩, true⟩]
          (.node 166 [⟨⟨16, [.vec]⟩, false⟩, ⟨⟨16, [.vec]⟩, true⟩]
           (.node 165 [⟨⟨16, [.vec]⟩, false⟩, ⟨⟨16, [.vec]⟩, false⟩, ⟨⟨16, [.vec]⟩, true⟩] .leaf .leaf)
           .leaf)
          (.node 168 [⟨⟨16, [.vec]⟩, false⟩, ⟨⟨16, [.vec]⟩, true⟩] .leaf .leaf))
         (.node 171 [⟨⟨16, [.vec]⟩, false⟩, ⟨⟨16, [.vec]⟩, false⟩]
          (.node 170 [⟨⟨16, [.vec]⟩, false⟩, ⟨⟨16, [.vec]⟩, false⟩] .leaf .leaf)
          (.node 172 [⟨⟨16, [.vec]⟩, false⟩, ⟨⟨16, [.vec]⟩, false⟩, ⟨⟨16, [.vec]⟩, true⟩] .leaf .leaf)))
        (.node 178 [⟨⟨16, [.vec]⟩, false⟩, ⟨⟨16, [.vec]⟩, false⟩, ⟨⟨16, [.vec]⟩, true⟩]
         (.node 176 [⟨⟨16, [.vec]⟩, false⟩, ⟨⟨16, [.vec]⟩, false⟩, ⟨⟨16, [.vec]⟩, true⟩]
          (.node 175 [⟨⟨16, [.vec]⟩, false⟩, ⟨⟨16, [.vec]⟩, false⟩, ⟨⟨16, [.vec]⟩, true⟩]
           (.node 174 [⟨⟨16, [.vec]⟩, true⟩] .leaf .leaf)
           .leaf)
          (.node 177 [⟨⟨16, [.vec]⟩, false⟩, ⟨⟨16, [.vec]⟩, false⟩, ⟨⟨16, [.vec]⟩, true⟩] .leaf .leaf))
         (.node 180 [⟨⟨16, [.vec]⟩, false⟩, ⟨⟨16, [.vec]⟩, true⟩]
          (.node 179 [⟨⟨16, [.vec]⟩, false⟩, ⟨⟨16, [.vec]⟩, false⟩, ⟨⟨16, [.vec]⟩, true⟩] .leaf .leaf)
          (.node 181 [⟨⟨16, [.vec]⟩, false⟩, ⟨⟨16, [.vec]⟩, false⟩, ⟨⟨16, [.vec]⟩, false⟩, ⟨⟨16, [.vec]⟩, true⟩] .leaf .leaf)))))
      (.node 200 [⟨⟨12, []⟩, false⟩, ⟨⟨12, []⟩, false⟩, ⟨⟨12, []⟩, true⟩]
       (.node 191 [⟨⟨12, []⟩, true⟩]
        (.node 187 [⟨⟨16, [.vec]⟩, false⟩, ⟨⟨16, [.vec]⟩, false⟩, ⟨⟨16, [.vec]⟩, true⟩]
         (.node 185 [⟨⟨16, [.vec]⟩, false⟩, ⟨⟨16, [.vec]⟩, true⟩]
          (.node 184 [⟨⟨16, [.vec]⟩, true⟩]
           (.node 183 [⟨⟨16, [.vec]⟩, false⟩, ⟨⟨16, [.vec]⟩, false⟩, ⟨⟨16, [.vec]⟩, true⟩] .leaf .leaf)
           .leaf)
          (.node 186 [⟨⟨16, []⟩, false⟩, ⟨⟨16, [.vec]⟩, true⟩] .leaf .leaf))
         (.node 189 [⟨⟨16, [.vec]⟩, false⟩, ⟨⟨12, []⟩, true⟩]
          (.node 188 [⟨⟨16, [.vec]⟩, false⟩, ⟨⟨16, [.vec]⟩, false⟩, ⟨⟨16, [.vec]⟩, true⟩] .leaf .leaf)
          (.node 190 [⟨⟨12, []⟩, false⟩, ⟨⟨12, []⟩, true⟩] .leaf .leaf)))
        (.node 196 [⟨⟨12, []⟩, false⟩]
         (.node 194 [⟨⟨12, []⟩, false⟩]
          (.node 193 [⟨⟨12, []⟩, false⟩, ⟨⟨12, []⟩, false⟩]
           (.node 192 [⟨⟨12, []⟩, true⟩] .leaf .leaf)
           .leaf)
          (.node 195 [⟨⟨12, []⟩, false⟩] .leaf .leaf))
         (.node 198 [⟨⟨12, []⟩, false⟩, ⟨⟨12, []⟩, false⟩, ⟨⟨12, []⟩, true⟩]
          (.node 197 [⟨⟨12, []⟩, false⟩] .leaf .leaf)
          (.node 199 [⟨⟨12, []⟩, false⟩, ⟨⟨12, []⟩, true⟩] .leaf .leaf))))
       (.node 209 [⟨⟨12, []⟩, false⟩, ⟨⟨12, []⟩, false⟩, ⟨⟨12, []⟩, true⟩]
        (.node 205 [⟨⟨12, []⟩, false⟩, ⟨⟨12, []⟩, false⟩, ⟨⟨12, []⟩, true⟩]
         (.node 203 [⟨⟨12, []⟩, false⟩, ⟨⟨12, []⟩, true⟩]
          (.node 202 [⟨⟨12, []⟩, false⟩, ⟨⟨12, []⟩, false⟩, ⟨⟨12, []⟩, true⟩]
           (.node 201 [⟨⟨12, []⟩, false⟩, ⟨⟨12, []⟩, true⟩] .leaf .leaf)
           .leaf)
          (.node 204 [⟨⟨12, []⟩, false⟩, ⟨⟨12, []⟩, true⟩] .leaf .leaf))
         (.node 207 [⟨⟨12, []⟩, false⟩, ⟨⟨12, []⟩, false⟩, ⟨⟨12, []⟩, true⟩]
          (.node 206 [⟨⟨12, []⟩, false⟩, ⟨⟨12, []⟩, true⟩] .leaf .leaf)
          (.node 208 [⟨⟨12, []⟩, false⟩, ⟨⟨12, []⟩, false⟩, ⟨⟨12, []⟩, true⟩] .leaf .leaf)))
        (.node 214 [⟨⟨12, []⟩, false⟩, ⟨⟨12, []⟩, false⟩, ⟨⟨12, []⟩, true⟩]
         (.node 212 [⟨⟨12, []⟩, false⟩, ⟨⟨12, []⟩, false⟩, ⟨⟨12, []⟩, true⟩]
          (.node 211 [⟨⟨12, []⟩, false⟩, ⟨⟨12, []⟩, false⟩, ⟨⟨12, []⟩, true⟩]
           (.node 210 [⟨⟨12, []⟩, false⟩, ⟨⟨12, []⟩, true⟩] .leaf .leaf)
           .leaf)
          (.node 213 [⟨⟨12, []⟩, false⟩, ⟨⟨12, []⟩, false⟩, ⟨⟨12, []⟩, true⟩] .leaf .leaf))
         (.node 216 [⟨⟨12, []⟩, false⟩, ⟨⟨12, []⟩, true⟩]
          (.node 215 [⟨⟨12, []⟩, false⟩, ⟨⟨12, []⟩, false⟩, ⟨⟨12, []⟩, true⟩] .leaf .leaf)
          (.node 217 [⟨⟨12, []⟩, false⟩, ⟨⟨12, []⟩, false⟩, ⟨⟨12, []⟩, true⟩] .leaf .leaf))))))
     (.node 255 [⟨⟨8, []⟩, false⟩, ⟨⟨8, []⟩, true⟩]
      (.node 237 [⟨⟨12, []⟩, false⟩, ⟨⟨12, []⟩, false⟩, ⟨⟨12, []⟩, true⟩]
       (.node 228 [⟨⟨36, []⟩, false⟩, ⟨⟨12, []⟩, false⟩, ⟨⟨12, []⟩, true⟩]
        (.node 223 [⟨⟨12, []⟩, false⟩, ⟨⟨12, []⟩, false⟩, ⟨⟨12, []⟩, true⟩]
         (.node 221 [⟨⟨12, []⟩, true⟩]
          (.node 220 [⟨⟨12, []⟩, true⟩]
           (.node 219 [⟨⟨12, []⟩, false⟩, ⟨⟨12, []⟩, true⟩] .leaf .leaf)
           .leaf)
          (.node 222 [⟨⟨12, []⟩, false⟩, ⟨⟨12, []⟩, true⟩] .leaf .leaf))
         (.node 226 [⟨⟨12, []⟩, true⟩, ⟨⟨12, []⟩, false⟩]
          (.node 225 [⟨⟨12, []⟩, false⟩, ⟨⟨12, []⟩, false⟩]
           (.node 224 [⟨⟨12, []⟩, false⟩, ⟨⟨12, []⟩, false⟩, ⟨⟨12, []⟩, true⟩] .leaf .leaf)
           .leaf)
          (.node 227 [⟨⟨64, [.mat, .vec]⟩, false⟩, ⟨⟨12, []⟩, false⟩, ⟨⟨12, []⟩, true⟩] .leaf .leaf)))
        (.node 233 [⟨⟨12, []⟩, false⟩, ⟨⟨12, []⟩, false⟩, ⟨⟨12, []⟩, true⟩]
         (.node 231 [⟨⟨12, []⟩, false⟩, ⟨⟨12, []⟩, false⟩]
          (.node 230 [⟨⟨12, []⟩, false⟩, ⟨⟨12, []⟩, false⟩, ⟨⟨12, []⟩, true⟩]
           (.node 229 [⟨⟨12, []⟩, false⟩, ⟨⟨12, []⟩, false⟩, ⟨⟨12, []⟩, true⟩] .leaf .leaf)
           .leaf)
          (.node 232 [⟨⟨12, []⟩, false⟩, ⟨⟨12, []⟩, false⟩] .leaf .leaf))
         (.node 235 [⟨⟨12, []⟩, false⟩, ⟨⟨12, []⟩, true⟩]
          (.node 234 [⟨⟨12, []⟩, false⟩, ⟨⟨12, []⟩, false⟩, ⟨⟨12, []⟩, true⟩] .leaf .leaf)
          (.node 236 [⟨⟨12, []⟩, true⟩] .leaf .leaf))))
       (.node 246 [⟨⟨12, []⟩, false⟩, ⟨⟨12, []⟩, true⟩]
        (.node 242 [⟨⟨12, []⟩, false⟩, ⟨⟨12, []⟩, true⟩]
         (.node 240 [⟨⟨12, []⟩, false⟩, ⟨⟨12, []⟩, false⟩, ⟨⟨12, []⟩, true⟩]
          (.node 239 [⟨⟨12, []⟩, false⟩, ⟨⟨12, []⟩, false⟩, ⟨⟨12, []⟩, true⟩]
           (.node 238 [⟨⟨12, []⟩, false⟩, ⟨⟨12, []⟩, false⟩, ⟨⟨12, []⟩, true⟩] .leaf .leaf)
           .leaf)
          (.node 241 [⟨⟨12, []⟩, false⟩, ⟨⟨12, []⟩, false⟩, ⟨⟨12, []⟩, true⟩] .leaf .leaf))
         (.node 244 [⟨⟨12, []⟩, false⟩, ⟨⟨12, []⟩, false⟩, ⟨⟨12, []⟩, true⟩]
          (.node 243 [⟨⟨12, []⟩, false⟩, ⟨⟨12, []⟩, false⟩, ⟨⟨12, []⟩, false⟩, ⟨⟨12, []⟩, true⟩] .leaf .leaf)
          (.node 245 [⟨⟨12, []⟩, false⟩, ⟨⟨12, []⟩, false⟩, ⟨⟨12, []⟩, true⟩] .leaf .leaf)))
        (.node 251 [⟨⟨12, []⟩, false⟩, ⟨⟨12, []⟩, true⟩]
         (.node 249 [⟨⟨12, []⟩, true⟩]
          (.node 248 [⟨⟨12, []⟩, false⟩, ⟨⟨12, []⟩, false⟩]
           (.node 247 [⟨⟨12, []⟩, false⟩, ⟨⟨12, []⟩, false⟩, ⟨⟨12, []⟩, true⟩] .leaf .leaf)
           .leaf)
          (.node 250 [⟨⟨12, []⟩, false⟩, ⟨⟨12, []⟩, true⟩] .leaf .leaf))
         (.node 253 [⟨⟨12, []⟩, false⟩, ⟨⟨12, []⟩, false⟩, ⟨⟨12, []⟩, true⟩]
          (.node 252 [⟨⟨12, []⟩, false⟩, ⟨⟨12, []⟩, false⟩, ⟨⟨12, []⟩, false⟩, ⟨⟨12, []⟩, true⟩] .leaf .leaf)
          (.node 254 [⟨⟨12, []⟩, false⟩, ⟨⟨12, []⟩, false⟩, ⟨⟨12, []⟩, true⟩] .leaf .leaf)))))
      (.node 273 [⟨⟨8, []⟩, false⟩, ⟨⟨8, []⟩, true⟩]
       (.node 264 [⟨⟨8, []⟩, false⟩, ⟨⟨8, []⟩, true⟩]
        (.node 260 [⟨⟨8, []⟩, false⟩, ⟨⟨8, []⟩, false⟩]
         (.node 258 [⟨⟨8, []⟩, true⟩]
          (.node 257 [⟨⟨8, []⟩, true⟩]
           (.node 256 [⟨⟨8, []⟩, false⟩, ⟨⟨8, []⟩, true⟩] .leaf .leaf)
           .leaf)
          (.node 259 [⟨⟨8, []⟩, false⟩, ⟨⟨8, []⟩, false⟩] .leaf .leaf))
         (.node 262 [⟨⟨8, []⟩, false⟩, ⟨⟨8, []⟩, true⟩]
          (.node 261 [⟨⟨8, []⟩, false⟩, ⟨⟨8, []⟩, false⟩, ⟨⟨8, []⟩, true⟩] .leaf .leaf)
          (.node 263 [⟨⟨8, []⟩, false⟩, ⟨⟨8, []⟩, false⟩, ⟨⟨8, []⟩, true⟩] .leaf .leaf)))
        (.node 269 [⟨⟨8, []⟩, false⟩, ⟨⟨8, []⟩, false⟩, ⟨⟨8, []⟩, true⟩]
         (.node 267 [⟨⟨8, []⟩, false⟩, ⟨⟨8, []⟩, false⟩, ⟨⟨8, []⟩, true⟩]
          (.node 266 [⟨⟨8, []⟩, false⟩, ⟨⟨8, []⟩, true⟩]
           (.node 265 [⟨⟨8, []⟩, false⟩, ⟨⟨8, []⟩, false⟩, ⟨⟨8, []⟩, true⟩] .leaf .leaf)
           .leaf)
          (.node 268 [⟨⟨8, []⟩, false⟩, ⟨⟨8, []⟩, true⟩] .leaf .leaf))
         (.node 271 [⟨⟨8, []⟩, false⟩, ⟨⟨8, []⟩, true⟩]
          (.node 270 [⟨⟨8, []⟩, false⟩, ⟨⟨8, []⟩, false⟩, ⟨⟨8, []⟩, true⟩] .leaf .leaf)
          (.node 272 [⟨⟨8, []⟩, false⟩, ⟨⟨8, []⟩, false⟩, ⟨⟨8, []⟩, true⟩] .leaf .leaf))))
       (.node 282 [⟨⟨8, []⟩, false⟩, ⟨⟨8, []⟩, false⟩, ⟨⟨8, []⟩, true⟩]
        (.node 278 [⟨⟨8, []⟩, false⟩, ⟨⟨8, []⟩, false⟩, ⟨⟨8, []⟩, true⟩]
         (.node 276 [⟨⟨8, []⟩, false⟩, ⟨⟨8, []⟩, false⟩, ⟨⟨8, []⟩, true⟩]
          (.node 275 [⟨⟨8, []⟩, false⟩, ⟨⟨8, []⟩, true⟩]
           (.node 274 [⟨⟨8, []⟩, false⟩, ⟨⟨8, []⟩, false⟩, ⟨⟨8, []⟩, true⟩] .leaf .leaf)
           .leaf)
          (.node 277 [⟨⟨8, []⟩, false⟩, ⟨⟨8, []⟩, false⟩, ⟨⟨8, []⟩, true⟩] .leaf .leaf))
         (.node 280 [⟨⟨8, []⟩, false⟩, ⟨⟨8, []⟩, false⟩, ⟨⟨8, []⟩, true⟩]
          (.node 279 [⟨⟨8, []⟩, false⟩, ⟨⟨8, []⟩, true⟩] .leaf .leaf)
          (.node 281 [⟨⟨8, []⟩, false⟩, ⟨⟨8, []⟩, true⟩] .leaf .leaf)))
        (.node 287 [⟨⟨8, []⟩, false⟩, ⟨⟨8, []⟩, false⟩]
         (.node 285 [⟨⟨8, []⟩, false⟩, ⟨⟨8, []⟩, false⟩, ⟨⟨8, []⟩, true⟩]
          (.node 284 [⟨⟨8, []⟩, false⟩, ⟨⟨8, []⟩, false⟩, ⟨⟨8, []⟩, true⟩]
           (.node 283 [⟨⟨8, []⟩, false⟩, ⟨⟨8, []⟩, true⟩] .leaf .leaf)
           .leaf)
          (.node 286 [⟨⟨8, []⟩, false⟩, ⟨⟨8, []⟩, false⟩] .leaf .leaf))
         (.node 289 [⟨⟨8, []⟩, false⟩]
          (.node 288 [⟨⟨8, []⟩, true⟩] .leaf .leaf)
          (.node 290 [⟨⟨8, []⟩, false⟩, ⟨⟨8, []⟩, false⟩] .leaf .leaf))))))))
   (.node 437 [⟨⟨48, [.vec]⟩, false⟩, ⟨⟨48, []⟩, false⟩, ⟨⟨64, [.mat, .vec]⟩, true⟩]
    (.node 364 [⟨⟨16, []⟩, false⟩, ⟨⟨16, []⟩, false⟩, ⟨⟨16, []⟩, true⟩]
     (.node 328 [⟨⟨12, []⟩, false⟩, ⟨⟨12, []⟩, false⟩]
      (.node 310 [⟨⟨12, []⟩, false⟩, ⟨⟨12, []⟩, false⟩, ⟨⟨12, []⟩, true⟩]
       (.node 301 [⟨⟨12, []⟩, false⟩]
        (.node 296 [⟨⟨12, []⟩, false⟩, ⟨⟨12, []⟩, true⟩]
         (.node 294 [⟨⟨8, []⟩, false⟩, ⟨⟨8, []⟩, true⟩]
          (.node 293 [⟨⟨8, []⟩, true⟩]
           (.node 292 [⟨⟨8, []⟩, false⟩, ⟨⟨8, []⟩, false⟩, ⟨⟨8, []⟩, true⟩] .leaf .leaf)
           .leaf)
          (.node 295 [⟨⟨16, []⟩, false⟩, ⟨⟨12, []⟩, true⟩] .leaf .leaf))
         (.node 299 [⟨⟨12, []⟩, false⟩, ⟨⟨12, []⟩, false⟩]
          (.node 298 [⟨⟨12, []⟩, true⟩]
           (.node 297 [⟨⟨12, []⟩, true⟩] .leaf .leaf)
           .leaf)
          (.node 300 [⟨⟨12, []⟩, false⟩] .leaf .leaf)))
        (.node 306 [⟨⟨12, []⟩, false⟩, ⟨⟨12, []⟩, false⟩, ⟨⟨12, []⟩, true⟩]
         (.node 304 [⟨⟨12, []⟩, false⟩, ⟨⟨12, []⟩, false⟩, ⟨⟨12, []⟩, true⟩]
          (.node 303 [⟨⟨12, []⟩, false⟩, ⟨⟨12, []⟩, true⟩]
           (.node 302 [⟨⟨12, []⟩, false⟩, ⟨⟨12, []⟩, false⟩, ⟨⟨12, []⟩, true⟩] .leaf .leaf)
           .leaf)
          (.node 305 [⟨⟨12, []⟩, false⟩, ⟨⟨12, []⟩, true⟩] .leaf .leaf))
         (.node 308 [⟨⟨12, []⟩, false⟩, ⟨⟨12, []⟩, false⟩, ⟨⟨12, []⟩, true⟩]
          (.node 307 [⟨⟨12, []⟩, false⟩, ⟨⟨12, []⟩, true⟩] .leaf .leaf)
          (.node 309 [⟨⟨12, []⟩, false⟩, ⟨⟨12, []⟩, true⟩] .leaf .leaf))))
       (.node 319 [⟨⟨12, []⟩, false⟩, ⟨⟨12, []⟩, false⟩, ⟨⟨12, []⟩, true⟩]
        (.node 315 [⟨⟨12, []⟩, false⟩, ⟨⟨12, []⟩, false⟩, ⟨⟨12, []⟩, true⟩]
         (.node 313 [⟨⟨12, []⟩, false⟩, ⟨⟨12, []⟩, false⟩, ⟨⟨12, []⟩, true⟩]
          (.node 312 [⟨⟨12, []⟩, false⟩, ⟨⟨12, []⟩, true⟩]
           (.node 311 [⟨⟨12, []⟩, false⟩, ⟨⟨12, []⟩, false⟩, ⟨⟨12, []⟩, true⟩] .leaf .leaf)
           .leaf)
          (.node 314 [⟨⟨12, []⟩, false⟩, ⟨⟨12, []⟩, true⟩] .leaf .leaf))
         (.node 317 [⟨⟨12, []⟩, false⟩, ⟨⟨12, []⟩, false⟩, ⟨⟨12, []⟩, true⟩]
          (.node 316 [⟨⟨12, []⟩, false⟩, ⟨⟨12, []⟩, true⟩] .leaf .leaf)
          (.node 318 [⟨⟨12, []⟩, false⟩, ⟨⟨12, []⟩, false⟩, ⟨⟨12, []⟩, true⟩] .leaf .leaf)))
        (.node 324 [⟨⟨12, []⟩, false⟩, ⟨⟨12, []⟩, true⟩]
         (.node 322 [⟨⟨12, []⟩, false⟩, ⟨⟨12, []⟩, true⟩]
          (.node 321 [⟨⟨12, []⟩, false⟩, ⟨⟨12, []⟩, false⟩, ⟨⟨12, []⟩, true⟩]
           (.node 320 [⟨⟨12, []⟩, false⟩, ⟨⟨12, []⟩, true⟩] .leaf .leaf)
           .leaf)
          (.node 323 [⟨⟨12, []⟩, false⟩, ⟨⟨12, []⟩, false⟩, ⟨⟨12, []⟩, true⟩] .leaf .leaf))
         (.node 326 [⟨⟨12, []⟩, false⟩, ⟨⟨12, []⟩, false⟩, ⟨⟨12, []⟩, true⟩]
          (.node 325 [⟨⟨12, []⟩, false⟩, ⟨⟨12, []⟩, false⟩, ⟨⟨12, []⟩, true⟩] .leaf .leaf)
          (.node 327 [⟨⟨12, []⟩, false⟩, ⟨⟨12, []⟩, false⟩] .leaf .leaf)))))
      (.node 346 [⟨⟨16, []⟩, false⟩, ⟨⟨16, []⟩, false⟩, ⟨⟨16, []⟩, true⟩]
       (.node 337 [⟨⟨16, []⟩, false⟩, ⟨⟨16, []⟩, true⟩]
        (.node 333 [⟨⟨12, []⟩, false⟩, ⟨⟨12, []⟩, false⟩, ⟨⟨12, []⟩, true⟩]
         (.node 331 [⟨⟨12, []⟩, false⟩, ⟨⟨12, []⟩, false⟩]
          (.node 330 [⟨⟨12, []⟩, false⟩]
           (.node 329 [⟨⟨12, []⟩, true⟩] .leaf .leaf)
           .leaf)
          (.node 332 [⟨⟨12, []⟩, false⟩, ⟨⟨12, []⟩, false⟩, ⟨⟨12, []⟩, true⟩] .leaf .leaf))
         (.node 335 [⟨⟨12, []⟩, false⟩, ⟨⟨12, []⟩, true⟩]
          (.node 334 [⟨⟨12, []⟩, true⟩] .leaf .leaf)
          (.node 336 [⟨⟨12, []⟩, false⟩, ⟨⟨16, []⟩, true⟩] .leaf .leaf)))
        (.node 342 [⟨⟨16, []⟩, false⟩, ⟨⟨16, []⟩, false⟩, ⟨⟨16, []⟩, true⟩]
         (.node 340 [⟨⟨16, []⟩, false⟩, ⟨⟨16, []⟩, false⟩, ⟨⟨16, []⟩, true⟩]
          (.node 339 [⟨⟨16, []⟩, true⟩]
           (.node 338 [⟨⟨16, []⟩, true⟩] .leaf .leaf)
           .leaf)
          (.node 341 [⟨⟨16, []⟩, false⟩, ⟨⟨16, []⟩, true⟩] .leaf .leaf))
         (.node 344 [⟨⟨16, []⟩, false⟩, ⟨⟨16, []⟩, false⟩, ⟨⟨16, []⟩, true⟩]
          (.node 343 [⟨⟨16, []⟩, false⟩, ⟨⟨16, []⟩, true⟩] .leaf .leaf)
          (.node 345 [⟨⟨16, []⟩, false⟩, ⟨⟨16, []⟩, true⟩] .leaf .leaf))))
       (.node 355 [⟨⟨16, []⟩, false⟩, ⟨⟨16, []⟩, true⟩]
        (.node 351 [⟨⟨16, []⟩, false⟩, ⟨⟨16, []⟩, true⟩]
         (.node 349 [⟨⟨16, []⟩, false⟩, ⟨⟨16, []⟩, true⟩]
          (.node 348 [⟨⟨16, []⟩, false⟩, ⟨⟨16, []⟩, false⟩, ⟨⟨16, []⟩, true⟩]
           (.node 347 [⟨⟨16, []⟩, false⟩, ⟨⟨16, []⟩, true⟩] .leaf .leaf)
           .leaf)
          (.node 350 [⟨⟨16, []⟩, false⟩, ⟨⟨16, []⟩, false⟩, ⟨⟨16, []⟩, true⟩] .leaf .leaf))
         (.node 353 [⟨⟨16, []⟩, false⟩, ⟨⟨16, []⟩, false⟩, ⟨⟨16, []⟩, true⟩]
          (.node 352 [⟨⟨16, []⟩, false⟩, ⟨⟨16, []⟩, false⟩, ⟨⟨16, []⟩, true⟩] .leaf .leaf)
          (.node 354 [⟨⟨16, []⟩, false⟩, ⟨⟨16, []⟩, false⟩, ⟨⟨16, []⟩, true⟩] .leaf .leaf)))
        (.node 360 [⟨⟨16, []⟩, false⟩, ⟨⟨16, []⟩, false⟩, ⟨⟨16, []⟩, true⟩]
         (.node 358 [⟨⟨16, []⟩, false⟩, ⟨⟨16, []⟩, false⟩, ⟨⟨16, []⟩, true⟩]
          (.node 357 [⟨⟨16, []⟩, false⟩, ⟨⟨16, []⟩, true⟩]
           (.node 356 [⟨⟨16, []⟩, false⟩, ⟨⟨16, []⟩, false⟩, ⟨⟨16, []⟩, true⟩] .leaf .leaf)
           .leaf)
          (.node 359 [⟨⟨16, []⟩, false⟩, ⟨⟨16, []⟩, true⟩] .leaf .leaf))
         (.node 362 [⟨⟨16, []⟩, false⟩, ⟨⟨16, []⟩, false⟩]
          (.node 361 [⟨⟨16, []⟩, false⟩, ⟨⟨16, []⟩, false⟩, ⟨⟨16, []⟩, true⟩] .leaf .leaf)
          (.node 363 [⟨⟨16, []⟩, false⟩, ⟨⟨16, []⟩, false⟩] .leaf .leaf))))))
     (.node 401 [⟨⟨32, []⟩, true⟩]
      (.node 383 [⟨⟨64, [.mat, .vec]⟩, false⟩, ⟨⟨64, [.mat, .vec]⟩, true⟩]
       (.node 374 [⟨⟨64, [.mat, .vec]⟩, false⟩, ⟨⟨36, []⟩, true⟩]
        (.node 369 [⟨⟨64, [.mat, .vec]⟩, false⟩, ⟨⟨64, [.mat, .vec]⟩, true⟩]
         (.node 367 [⟨⟨16, []⟩, false⟩, ⟨⟨16, []⟩, true⟩]
          (.node 366 [⟨⟨16, []⟩, true⟩]
           (.node 365 [⟨⟨16, []⟩, false⟩, ⟨⟨16, []⟩, false⟩, ⟨⟨16, []⟩, true⟩] .leaf .leaf)
           .leaf)
          (.node 368 [⟨⟨64, [.mat, .vec]⟩, false⟩, ⟨⟨64, [.mat, .vec]⟩, true⟩] .leaf .leaf))
         (.node 372 [⟨⟨64, [.mat, .vec]⟩, true⟩]
          (.node 371 [⟨⟨64, [.mat, .vec]⟩, true⟩]
           (.node 370 [⟨⟨64, [.mat, .vec]⟩, true⟩] .leaf .leaf)
           .leaf)
          (.node 373 [⟨⟨64, [.mat, .vec]⟩, false⟩, ⟨⟨36, []⟩, true⟩] .leaf .leaf)))
        (.node 379 [⟨⟨64, [.mat, .vec]⟩, false⟩]
         (.node 377 [⟨⟨64, [.mat, .vec]⟩, false⟩, ⟨⟨64, [.mat, .vec]⟩, true⟩]
          (.node 376 [⟨⟨64, [.mat, .vec]⟩, false⟩, ⟨⟨64, [.mat, .vec]⟩, false⟩, ⟨⟨64, [.mat, .vec]⟩, true⟩]
           (.node 375 [⟨⟨36, []⟩, false⟩, ⟨⟨64, [.mat, .vec]⟩, true⟩] .leaf .leaf)
           .leaf)
          (.node 378 [⟨⟨64, [.mat, .vec]⟩, false⟩, ⟨⟨16, [.vec]⟩, false⟩, ⟨⟨16, [.vec]⟩, true⟩] .leaf .leaf))
         (.node 381 [⟨⟨64, [.mat, .vec]⟩, false⟩, ⟨⟨16, [.vec]⟩, true⟩]
          (.node 380 [⟨⟨64, [.mat, .vec]⟩, false⟩] .leaf .leaf)
          (.node 382 [⟨⟨64, [.mat, .vec]⟩, false⟩, ⟨⟨12, []⟩, false⟩, ⟨⟨12, []⟩, true⟩] .leaf .leaf))))
       (.node 392 [⟨⟨16, [.vec]⟩, false⟩, ⟨⟨64, [.mat, .vec]⟩, false⟩, ⟨⟨16, [.vec]⟩, false⟩]
        (.node 388 [⟨⟨64, [.mat, .vec]⟩, false⟩, ⟨⟨64, [.mat, .vec]⟩, true⟩]
         (.node 386 [⟨⟨64, [.mat, .vec]⟩, true⟩]
          (.node 385 [⟨⟨64, [.mat, .vec]⟩, true⟩]
           (.node 384 [⟨⟨64, [.mat, .vec]⟩, true⟩] .leaf .leaf)
           .leaf)
          (.node 387 [⟨⟨64, [.mat, .vec]⟩, false⟩] .leaf .leaf))
         (.node 390 [⟨⟨64, [.mat, .vec]⟩, true⟩]
          (.node 389 [⟨⟨64, [.mat, .vec]⟩, false⟩, ⟨⟨64, [.mat, .vec]⟩, true⟩] .leaf .leaf)
          (.node 391 [⟨⟨64, [.mat, .vec]⟩, true⟩] .leaf .leaf)))
        (.node 397 [⟨⟨32, []⟩, false⟩, ⟨⟨32, []⟩, true⟩]
         (.node 395 [⟨⟨32, []⟩, false⟩, ⟨⟨32, []⟩, true⟩]
          (.node 394 [⟨⟨64, [.mat, .vec]⟩, true⟩]
           (.node 393 [⟨⟨64, []⟩, false⟩, ⟨⟨64, [.mat, .vec]⟩, true⟩] .leaf .leaf)
           .leaf)
          (.node 396 [⟨⟨32, []⟩, true⟩] .leaf .leaf))
         (.node 399 [⟨⟨32, []⟩, false⟩, ⟨⟨16, [.vec]⟩, false⟩, ⟨⟨8, []⟩, true⟩]
          (.node 398 [⟨⟨32, []⟩, false⟩, ⟨⟨32, [.vec]⟩, false⟩, ⟨⟨16, [.vec]⟩, true⟩] .leaf .leaf)
          (.node 400 [⟨⟨32, []⟩, false⟩, ⟨⟨32, [.vec]⟩, true⟩] .leaf .leaf)))))
      (.node 419 [⟨⟨36, []⟩, true⟩]
       (.node 410 [⟨⟨36, []⟩, true⟩]
        (.node 406 [⟨⟨48, []⟩, false⟩, ⟨⟨16, [.vec]⟩, false⟩, ⟨⟨12, []⟩, true⟩]
         (.node 404 [⟨⟨48, []⟩, false⟩, ⟨⟨48, []⟩, true⟩]
          (.node 403 [⟨⟨48, []⟩, true⟩]
           (.node 402 [⟨⟨48, []⟩, false⟩, ⟨⟨48, []⟩, true⟩] .leaf .leaf)
           .leaf)
          (.node 405 [⟨⟨48, []⟩, false⟩, ⟨⟨48, [.vec]⟩, false⟩, ⟨⟨36, []⟩, true⟩] .leaf .leaf))
         (.node 408 [⟨⟨48, []⟩, true⟩]
          (.node 407 [⟨⟨48, []⟩, false⟩, ⟨⟨48, [.vec]⟩, true⟩] .leaf .leaf)
          (.node 409 [⟨⟨36, []⟩, false⟩, ⟨⟨36, []⟩, true⟩] .leaf .leaf)))
        (.node 415 [⟨⟨36, []⟩, true⟩]
         (.node 413 [⟨⟨36, []⟩, false⟩, ⟨⟨36, []⟩, false⟩, ⟨⟨36, []⟩, true⟩]
          (.node 412 [⟨⟨36, []⟩, true⟩]
           (.node 411 [⟨⟨36, []⟩, true⟩] .leaf .leaf)
           .leaf)
          (.node 414 [⟨⟨36, []⟩, false⟩, ⟨⟨36, []⟩, true⟩] .leaf .leaf))
         (.node 417 [⟨⟨36, []⟩, false⟩]
          (.node 416 [⟨⟨36, []⟩, false⟩, ⟨⟨12, []⟩, false⟩, ⟨⟨12, []⟩, true⟩] .leaf .leaf)
          (.node 418 [⟨⟨36, []⟩, false⟩, ⟨⟨16, [.vec]⟩, true⟩] .leaf .leaf))))
       (.node 428 [⟨⟨24, []⟩, true⟩]
        (.node 424 [⟨⟨12, []⟩, false⟩, ⟨⟨36, []⟩, false⟩, ⟨⟨12, []⟩, false⟩]
         (.node 422 [⟨⟨36, []⟩, true⟩]
          (.node 421 [⟨⟨36, []⟩, false⟩, ⟨⟨36, []⟩, true⟩]
           (.node 420 [⟨⟨36, []⟩, false⟩] .leaf .leaf)
           .leaf)
          (.node 423 [⟨⟨36, []⟩, true⟩] .leaf .leaf))
         (.node 426 [⟨⟨36, []⟩, true⟩]
          (.node 425 [⟨⟨36, []⟩, false⟩, ⟨⟨36, []⟩, true⟩] .leaf .leaf)
          (.node 427 [⟨⟨24, []⟩, false⟩, ⟨⟨24, []⟩, true⟩] .leaf .leaf)))
        (.node 433 [⟨⟨24, []⟩, true⟩]
         (.node 431 [⟨⟨24, []⟩, false⟩, ⟨⟨12, []⟩, false⟩, ⟨⟨8, []⟩, true⟩]
          (.node 430 [⟨⟨24, []⟩, false⟩, ⟨⟨24, []⟩, false⟩, ⟨⟨16, [.vec]⟩, true⟩]
           (.node 429 [⟨⟨24, []⟩, false⟩, ⟨⟨24, []⟩, true⟩] .leaf .leaf)
           .leaf)
          (.node 432 [⟨⟨24, []⟩, false⟩, ⟨⟨24, []⟩, true⟩] .leaf .leaf))
         (.node 435 [⟨⟨48, [.vec]⟩, true⟩]
          (.node 434 [⟨⟨48, [.vec]⟩, false⟩, ⟨⟨48, [.vec]⟩, true⟩] .leaf .leaf)
          (.node 436 [⟨⟨48, []⟩, false⟩, ⟨⟨48, [.vec]⟩, true⟩] .leaf .leaf)))))))
    (.node 510 [⟨⟨64, [.mat, .vec]⟩, true⟩]
     (.node 474 [⟨⟨64, [.mat, .vec]⟩, true⟩, ⟨⟨12, []⟩, false⟩]
      (.node 456 [⟨⟨8, []⟩, false⟩, ⟨⟨16, [.vec]⟩, false⟩, ⟨⟨8, []⟩, false⟩]
       (.node 447 [⟨⟨16, [.vec]⟩, false⟩, ⟨⟨8, []⟩, false⟩, ⟨⟨8, []⟩, true⟩]
        (.node 442 [⟨⟨16, [.vec]⟩, false⟩, ⟨⟨16, [.vec]⟩, true⟩]
         (.node 440 [⟨⟨48, [.vec]⟩, true⟩]
          (.node 439 [⟨⟨48, [.vec]⟩, false⟩, ⟨⟨48, []⟩, true⟩]
           (.node 438 [⟨⟨48, [.vec]⟩, false⟩, ⟨⟨12, []⟩, false⟩, ⟨⟨16, [.vec]⟩, true⟩] .leaf .leaf)
           .leaf)
          (.node 441 [⟨⟨16, []⟩, false⟩, ⟨⟨16, [.vec]⟩, true⟩] .leaf .leaf))
         (.node 445 [⟨⟨16, [.vec]⟩, true⟩]
          (.node 444 [⟨⟨16, [.vec]⟩, true⟩]
           (.node 443 [⟨⟨16, [.vec]⟩, true⟩] .leaf .leaf)
           .leaf)
          (.node 446 [⟨⟨16, [.vec]⟩, false⟩, ⟨⟨16, [.vec]⟩, false⟩, ⟨⟨16, [.vec]⟩, true⟩] .leaf .leaf)))
        (.node 452 [⟨⟨16, [.vec]⟩, true⟩]
         (.node 450 [⟨⟨16, [.vec]⟩, true⟩]
          (.node 449 [⟨⟨16, [.vec]⟩, true⟩]
           (.node 448 [⟨⟨16, [.vec]⟩, false⟩, ⟨⟨16, [.vec]⟩, true⟩] .leaf .leaf)
           .leaf)
          (.node 451 [⟨⟨16, [.vec]⟩, false⟩, ⟨⟨16, [.vec]⟩, true⟩] .leaf .leaf))
         (.node 454 [⟨⟨16, [.vec]⟩, false⟩]
          (.node 453 [⟨⟨16, [.vec]⟩, true⟩] .leaf .leaf)
          (.node 455 [⟨⟨16, [.vec]⟩, false⟩] .leaf .leaf))))
       (.node 465 [⟨⟨32, [.vec]⟩, true⟩]
        (.node 461 [⟨⟨24, []⟩, false⟩, ⟨⟨8, []⟩, false⟩, ⟨⟨12, []⟩, true⟩]
         (.node 459 [⟨⟨24, []⟩, false⟩, ⟨⟨24, []⟩, true⟩]
          (.node 458 [⟨⟨24, []⟩, true⟩]
           (.node 457 [⟨⟨24, []⟩, false⟩, ⟨⟨24, []⟩, true⟩] .leaf .leaf)
           .leaf)
          (.node 460 [⟨⟨24, []⟩, false⟩, ⟨⟨24, []⟩, false⟩, ⟨⟨36, []⟩, true⟩] .leaf .leaf))
         (.node 463 [⟨⟨24, []⟩, true⟩]
          (.node 462 [⟨⟨24, []⟩, false⟩, ⟨⟨24, []⟩, true⟩] .leaf .leaf)
          (.node 464 [⟨⟨32, [.vec]⟩, false⟩, ⟨⟨32, [.vec]⟩, true⟩] .leaf .leaf)))
        (.node 470 [⟨⟨32, [.vec]⟩, true⟩]
         (.node 468 [⟨⟨32, [.vec]⟩, false⟩, ⟨⟨8, []⟩, false⟩, ⟨⟨16, [.vec]⟩, true⟩]
          (.node 467 [⟨⟨32, [.vec]⟩, false⟩, ⟨⟨32, []⟩, false⟩, ⟨⟨64, [.mat, .vec]⟩, true⟩]
           (.node 466 [⟨⟨32, []⟩, false⟩, ⟨⟨32, [.vec]⟩, true⟩] .leaf .leaf)
           .leaf)
          (.node 469 [⟨⟨32, [.vec]⟩, false⟩, ⟨⟨32, []⟩, true⟩] .leaf .leaf))
         (.node 472 [⟨⟨64, [.mat, .vec]⟩, false⟩, ⟨⟨64, [.mat, .vec]⟩, false⟩, ⟨⟨64, [.mat, .vec]⟩, true⟩]
          (.node 471 [⟨⟨64, [.mat, .vec]⟩, false⟩, ⟨⟨64, [.mat, .vec]⟩, false⟩, ⟨⟨64, [.mat, .vec]⟩, true⟩] .leaf .leaf)
          (.node 473 [⟨⟨64, [.mat, .vec]⟩, true⟩] .leaf .leaf)))))
      (.node 492 [⟨⟨64, [.mat, .vec]⟩, true⟩, ⟨⟨12, []⟩, false⟩]
       (.node 483 [⟨⟨64, [.mat, .vec]⟩, false⟩, ⟨⟨16, [.vec]⟩, true⟩, ⟨⟨64, [.mat, .vec]⟩, true⟩, ⟨⟨12, []⟩, true⟩]
        (.node 479 [⟨⟨64, [.mat, .vec]⟩, true⟩, ⟨⟨12, []⟩, false⟩]
         (.node 477 [⟨⟨64, [.mat, .vec]⟩, true⟩, ⟨⟨12, []⟩, false⟩]
          (.node 476 [⟨⟨64, [.mat, .vec]⟩, true⟩, ⟨⟨12, []⟩, false⟩]
           (.node 475 [⟨⟨64, [.mat, .vec]⟩, false⟩, ⟨⟨12, []⟩, false⟩, ⟨⟨64, [.mat, .vec]⟩, true⟩] .leaf .leaf)
           .leaf)
          (.node 478 [⟨⟨64, [.mat, .vec]⟩, true⟩] .leaf .leaf))
         (.node 481 [⟨⟨64, [.mat, .vec]⟩, false⟩]
          (.node 480 [⟨⟨64, [.mat, .vec]⟩, false⟩, ⟨⟨12, []⟩, true⟩] .leaf .leaf)
          (.node 482 [⟨⟨64, [.mat, .vec]⟩, false⟩, ⟨⟨64, [.mat, .vec]⟩, true⟩, ⟨⟨12, []⟩, true⟩] .leaf .leaf)))
        (.node 488 [⟨⟨64, [.mat, .vec]⟩, true⟩]
         (.node 486 [⟨⟨64, [.mat, .vec]⟩, true⟩]
          (.node 485 [⟨⟨64, [.mat, .vec]⟩, false⟩, ⟨⟨12, []⟩, false⟩, ⟨⟨64, [.mat, .vec]⟩, true⟩]
           (.node 484 [⟨⟨64, [.mat, .vec]⟩, true⟩, ⟨⟨12, []⟩, false⟩] .leaf .leaf)
           .leaf)
          (.node 487 [⟨⟨64, [.mat, .vec]⟩, true⟩] .leaf .leaf))
         (.node 490 [⟨⟨64, [.mat, .vec]⟩, false⟩, ⟨⟨64, [.mat, .vec]⟩, true⟩]
          (.node 489 [⟨⟨64, [.mat, .vec]⟩, false⟩, ⟨⟨64, [.mat, .vec]⟩, true⟩] .leaf .leaf)
          (.node 491 [⟨⟨64, [.mat, .vec]⟩, false⟩, ⟨⟨64, [.mat, .vec]⟩, true⟩] .leaf .leaf))))
       (.node 501 [⟨⟨64, [.mat, .vec]⟩, false⟩, ⟨⟨64, [.mat, .vec]⟩, true⟩]
        (.node 497 [⟨⟨64, [.mat, .vec]⟩, false⟩, ⟨⟨12, []⟩, false⟩, ⟨⟨64, [.mat, .vec]⟩, true⟩]
         (.node 495 [⟨⟨64, [.mat, .vec]⟩, true⟩, ⟨⟨12, []⟩, false⟩]
          (.node 494 [⟨⟨64, [.mat, .vec]⟩, true⟩, ⟨⟨12, []⟩, false⟩, ⟨⟨12, []⟩, false⟩]
           (.node 493 [⟨⟨64, [.mat, .vec]⟩, true⟩, ⟨⟨12, []⟩, false⟩, ⟨⟨12, []⟩, false⟩] .leaf .leaf)
           .leaf)
          (.node 496 [⟨⟨64, [.mat, .vec]⟩, true⟩, ⟨⟨12, []⟩, false⟩] .leaf .leaf))
         (.node 499 [⟨⟨64, [.mat, .vec]⟩, true⟩]
          (.node 498 [⟨⟨64, [.mat, .vec]⟩, true⟩] .leaf .leaf)
          (.node 500 [⟨⟨64, [.mat, .vec]⟩, true⟩] .leaf .leaf)))
        (.node 506 [⟨⟨64, [.mat, .vec]⟩, true⟩, ⟨⟨12, []⟩, false⟩]
         (.node 504 [⟨⟨64, [.mat, .vec]⟩, true⟩, ⟨⟨12, []⟩, false⟩]
          (.node 503 [⟨⟨64, [.mat, .vec]⟩, false⟩, ⟨⟨64, [.mat, .vec]⟩, true⟩]
           (.node 502 [⟨⟨64, [.mat, .vec]⟩, false⟩, ⟨⟨64, [.mat, .vec]⟩, true⟩] .leaf .leaf)
           .leaf)
          (.node 505 [⟨⟨64, [.mat, .vec]⟩, true⟩, ⟨⟨12, []⟩, false⟩, ⟨⟨12, []⟩, false⟩] .leaf .leaf))
         (.node 508 [⟨⟨64, [.mat, .vec]⟩, false⟩]
          (.node 507 [⟨⟨16, [.vec]⟩, true⟩] .leaf .leaf)
          (.node 509 [⟨⟨64, [.mat, .vec]⟩, false⟩] .leaf .leaf))))))
     (.node 547 [⟨⟨64, [.mat, .vec]⟩, false⟩, ⟨⟨4, []⟩, true⟩]
      (.node 529 [⟨⟨64, [.mat, .vec]⟩, false⟩]
       (.node 520 [⟨⟨64, [.mat, .vec]⟩, true⟩]
        (.node 515 [⟨⟨64, [.mat, .vec]⟩, true⟩]
         (.node 513 [⟨⟨24, []⟩, false⟩, ⟨⟨64, [.mat, .vec]⟩, true⟩]
          (.node 512 [⟨⟨24, []⟩, false⟩, ⟨⟨64, [.mat, .vec]⟩, true⟩]
           (.node 511 [⟨⟨24, []⟩, false⟩, ⟨⟨64, [.mat, .vec]⟩, true⟩] .leaf .leaf)
           .leaf)
          (.node 514 [⟨⟨64, [.mat, .vec]⟩, true⟩] .leaf .leaf))
         (.node 518 [⟨⟨64, [.mat, .vec]⟩, true⟩]
          (.node 517 [⟨⟨64, [.mat, .vec]⟩, true⟩]
           (.node 516 [⟨⟨64, [.mat, .vec]⟩, true⟩] .leaf .leaf)
           .leaf)
          (.node 519 [⟨⟨64, [.mat, .vec]⟩, true⟩] .leaf .leaf)))
        (.node 525 [⟨⟨64, [.mat, .vec]⟩, false⟩, ⟨⟨4, []⟩, true⟩, ⟨⟨4, []⟩, true⟩]
         (.node 523 [⟨⟨64, [.mat, .vec]⟩, false⟩, ⟨⟨4, []⟩, true⟩, ⟨⟨4, []⟩, true⟩]
          (.node 522 [⟨⟨64, [.mat, .vec]⟩, false⟩, ⟨⟨24, []⟩, true⟩]
           (.node 521 [⟨⟨64, [.mat, .vec]⟩, false⟩, ⟨⟨4, []⟩, true⟩, ⟨⟨4, []⟩, true⟩, ⟨⟨4, []⟩, true⟩, ⟨⟨4, []⟩, true⟩, ⟨⟨4, []⟩, true⟩, ⟨⟨4, []⟩, true⟩] .leaf .leaf)
           .leaf)
          (.node 524 [⟨⟨64, [.mat, .vec]⟩, false⟩, ⟨⟨4, []⟩, true⟩, ⟨⟨4, []⟩, true⟩] .leaf .leaf))
         (.node 527 [⟨⟨64, [.mat, .vec]⟩, false⟩, ⟨⟨4, []⟩, true⟩]
          (.node 526 [⟨⟨64, [.mat, .vec]⟩, false⟩, ⟨⟨4, []⟩, true⟩] .leaf .leaf)
          (.node 528 [⟨⟨64, [.mat, .vec]⟩, false⟩, ⟨⟨16, [.vec]⟩, true⟩] .leaf .leaf))))
       (.node 538 [⟨⟨64, [.mat, .vec]⟩, true⟩]
        (.node 534 [⟨⟨24, []⟩, false⟩, ⟨⟨64, [.mat, .vec]⟩, true⟩]
         (.node 532 [⟨⟨24, []⟩, false⟩, ⟨⟨64, [.mat, .vec]⟩, true⟩]
          (.node 531 [⟨⟨64, [.mat, .vec]⟩, true⟩]
           (.node 530 [⟨⟨64, [.mat, .vec]⟩, false⟩] .leaf .leaf)
           .leaf)
          (.node 533 [⟨⟨24, []⟩, false⟩, ⟨⟨64, [.mat, .vec]⟩, true⟩] .leaf .leaf))
         (.node 536 [⟨⟨64, [.mat, .vec]⟩, true⟩]
          (.node 535 [⟨⟨64, [.mat, .vec]⟩, true⟩] .leaf .leaf)
          (.node 537 [⟨⟨64, [.mat, .vec]⟩, true⟩] .leaf .leaf)))
        (.node 543 [⟨⟨64, [.mat, .vec]⟩, false⟩, ⟨⟨24, []⟩, true⟩]
         (.node 541 [⟨⟨64, [.mat, .vec]⟩, true⟩]
          (.node 540 [⟨⟨64, [.mat, .vec]⟩, true⟩]
           (.node 539 [⟨⟨64, [.mat, .vec]⟩, true⟩] .leaf .leaf)
           .leaf)
          (.node 542 [⟨⟨64, [.mat, .vec]⟩, false⟩, ⟨⟨4, []⟩, true⟩, ⟨⟨4, []⟩, true⟩, ⟨⟨4, []⟩, true⟩, ⟨⟨4, []⟩, true⟩, ⟨⟨4, []⟩, true⟩, ⟨⟨4, []⟩, true⟩] .leaf .leaf))
         (.node 545 [⟨⟨64, [.mat, .vec]⟩, false⟩, ⟨⟨4, []⟩, true⟩, ⟨⟨4, []⟩, true⟩]
          (.node 544 [⟨⟨64, [.mat, .vec]⟩, false⟩, ⟨⟨4, []⟩, true⟩, ⟨⟨4, []⟩, true⟩] .leaf .leaf)
          (.node 546 [⟨⟨64, [.mat, .vec]⟩, false⟩, ⟨⟨4, []⟩, true⟩, ⟨⟨4, []⟩, true⟩] .leaf .leaf)))))
      (.node 565 [⟨⟨64, [.mat, .vec]⟩, false⟩, ⟨⟨4, []⟩, true⟩, ⟨⟨4, []⟩, true⟩]
       (.node 556 [⟨⟨64, [.mat, .vec]⟩, true⟩]
        (.node 552 [⟨⟨64, [.mat, .vec]⟩, true⟩]
         (.node 550 [⟨⟨64, [.mat, .vec]⟩, false⟩]
          (.node 549 [⟨⟨64, [.mat, .vec]⟩, false⟩, ⟨⟨16, [.vec]⟩, true⟩]
           (.node 548 [⟨⟨64, [.mat, .vec]⟩, false⟩, ⟨⟨4, []⟩, true⟩] .leaf .leaf)
           .leaf)
          (.node 551 [⟨⟨64, [.mat, .vec]⟩, false⟩] .leaf .leaf))
         (.node 554 [⟨⟨24, []⟩, false⟩, ⟨⟨64, [.mat, .vec]⟩, true⟩]
          (.node 553 [⟨⟨24, []⟩, false⟩, ⟨⟨64, [.mat, .vec]⟩, true⟩] .leaf .leaf)
          (.node 555 [⟨⟨24, []⟩, false⟩, ⟨⟨64, [.mat, .vec]⟩, true⟩] .leaf .leaf)))
        (.node 561 [⟨⟨64, [.mat, .vec]⟩, true⟩]
         (.node 559 [⟨⟨64, [.mat, .vec]⟩, true⟩]
          (.node 558 [⟨⟨64, [.mat, .vec]⟩, true⟩]
           (.node 557 [⟨⟨64, [.mat, .vec]⟩, true⟩] .leaf .leaf)
           .leaf)
          (.node 560 [⟨⟨64, [.mat, .vec]⟩, true⟩] .leaf .leaf))
         (.node 563 [⟨⟨64, [.mat, .vec]⟩, false⟩, ⟨⟨4, []⟩, true⟩, ⟨⟨4, []⟩, true⟩, ⟨⟨4, []⟩, true⟩, ⟨⟨4, []⟩, true⟩, ⟨⟨4, []⟩, true⟩, ⟨⟨4, []⟩, true⟩]
          (.node 562 [⟨⟨64, [.mat, .vec]⟩, true⟩] .leaf .leaf)
          (.node 564 [⟨⟨64, [.mat, .vec]⟩, false⟩, ⟨⟨24, []⟩, true⟩] .leaf .leaf))))
       (.node 574 [⟨⟨24, []⟩, false⟩, ⟨⟨64, [.mat, .vec]⟩, true⟩]
        (.node 570 [⟨⟨64, [.mat, .vec]⟩, false⟩, ⟨⟨16, [.vec]⟩, true⟩]
         (.node 568 [⟨⟨64, [.mat, .vec]⟩, false⟩, ⟨⟨4, []⟩, true⟩]
          (.node 567 [⟨⟨64, [.mat, .vec]⟩, false⟩, ⟨⟨4, []⟩, true⟩, ⟨⟨4, []⟩, true⟩]
           (.node 566 [⟨⟨64, [.mat, .vec]⟩, false⟩, ⟨⟨4, []⟩, true⟩, ⟨⟨4, []⟩, true⟩] .leaf .leaf)
           .leaf)
          (.node 569 [⟨⟨64, [.mat, .vec]⟩, false⟩, ⟨⟨4, []⟩, true⟩] .leaf .leaf))
         (.node 572 [⟨⟨64, [.mat, .vec]⟩, false⟩]
          (.node 571 [⟨⟨64, [.mat, .vec]⟩, false⟩] .leaf .leaf)
          (.node 573 [⟨⟨64, [.mat, .vec]⟩, true⟩] .leaf .leaf)))
        (.node 579 [⟨⟨64, [.mat, .vec]⟩, true⟩]
         (.node 577 [⟨⟨64, [.mat, .vec]⟩, true⟩]
          (.node 576 [⟨⟨24, []⟩, false⟩, ⟨⟨64, [.mat, .vec]⟩, true⟩]
           (.node 575 [⟨⟨24, []⟩, false⟩, ⟨⟨64, [.mat, .vec]⟩, true⟩] .leaf .leaf)
           .leaf)
          (.node 578 [⟨⟨64, [.mat, .vec]⟩, true⟩] .leaf .leaf))
         (.node 581 [⟨⟨64, [.mat, .vec]⟩, true⟩]
          (.node 580 [⟨⟨64, [.mat, .vec]⟩, true⟩] .leaf .leaf)
          (.node 582 [⟨⟨64, [.mat, .vec]⟩, true⟩] .leaf .leaf)))))))))
  (.node 875 [⟨⟨8, []⟩, false⟩]
   (.node 729 [⟨⟨24, []⟩, false⟩, ⟨⟨24, []⟩, false⟩]
    (.node 656 [⟨⟨16, [.vec]⟩, false⟩, ⟨⟨12, []⟩, true⟩]
     (.node 620 [⟨⟨64, [.mat, .vec]⟩, true⟩]
      (.node 602 [⟨⟨12, []⟩, false⟩, ⟨⟨12, []⟩, false⟩, ⟨⟨64, [.mat, .vec]⟩, true⟩]
       (.node 593 [⟨⟨64, [.mat, .vec]⟩, false⟩]
        (.node 588 [⟨⟨64, [.mat, .vec]⟩, false⟩, ⟨⟨4, []⟩, true⟩, ⟨⟨4, []⟩, true⟩]
         (.node 586 [⟨⟨64, [.mat, .vec]⟩, false⟩, ⟨⟨4, []⟩, true⟩, ⟨⟨4, []⟩, true⟩]
          (.node 585 [⟨⟨64, [.mat, .vec]⟩, false⟩, ⟨⟨24, []⟩, true⟩]
           (.node 584 [⟨⟨64, [.mat, .vec]⟩, false⟩, ⟨⟨4, []⟩, true⟩, ⟨⟨4, []⟩, true⟩, ⟨⟨4, []⟩, true⟩, ⟨⟨4, []⟩, true⟩, ⟨⟨4, []⟩, true⟩, ⟨⟨4, []⟩, true⟩] .leaf .leaf)
           .leaf)
          (.node 587 [⟨⟨64, [.mat, .vec]⟩, false⟩, ⟨⟨4, []⟩, true⟩, ⟨⟨4, []⟩, true⟩] .leaf .leaf))
         (.node 591 [⟨⟨64, [.mat, .vec]⟩, false⟩, ⟨⟨16, [.vec]⟩, true⟩]
          (.node 590 [⟨⟨64, [.mat, .vec]⟩, false⟩, ⟨⟨4, []⟩, true⟩]
           (.node 589 [⟨⟨64, [.mat, .vec]⟩, false⟩, ⟨⟨4, []⟩, true⟩] .leaf .leaf)
           .leaf)
          (.node 592 [⟨⟨64, [.mat, .vec]⟩, false⟩] .leaf .leaf)))
        (.node 598 [⟨⟨12, []⟩, false⟩, ⟨⟨12, []⟩, false⟩, ⟨⟨12, []⟩, false⟩, ⟨⟨64, [.mat, .vec]⟩, true⟩]
         (.node 596 [⟨⟨12, []⟩, false⟩, ⟨⟨12, []⟩, false⟩, ⟨⟨64, [.mat, .vec]⟩, true⟩]
          (.node 595 [⟨⟨12, []⟩, false⟩, ⟨⟨12, []⟩, false⟩, ⟨⟨12, []⟩, false⟩, ⟨⟨64, [.mat, .vec]⟩, true⟩]
           (.node 594 [⟨⟨12, []⟩, false⟩, ⟨⟨12, []⟩, false⟩, ⟨⟨12, []⟩, false⟩, ⟨⟨64, [.mat, .vec]⟩, true⟩] .leaf .leaf)
           .leaf)
          (.node 597 [⟨⟨12, []⟩, false⟩, ⟨⟨12, []⟩, false⟩, ⟨⟨12, []⟩, false⟩, ⟨⟨64, [.mat, .vec]⟩, true⟩] .leaf .leaf))
         (.node 600 [⟨⟨12, []⟩, false⟩, ⟨⟨12, []⟩, false⟩, ⟨⟨12, []⟩, false⟩, ⟨⟨64, [.mat, .vec]⟩, true⟩]
          (.node 599 [⟨⟨12, []⟩, false⟩, ⟨⟨12, []⟩, false⟩, ⟨⟨64, [.mat, .vec]⟩, true⟩] .leaf .leaf)
          (.node 601 [⟨⟨12, []⟩, false⟩, ⟨⟨12, []⟩, false⟩, ⟨⟨12, []⟩, false⟩, ⟨⟨64, [.mat, .vec]⟩, true⟩] .leaf .leaf))))
       (.node 611 [⟨⟨12, []⟩, false⟩, ⟨⟨12, []⟩, false⟩, ⟨⟨64, [.mat, .vec]⟩, true⟩]
        (.node 607 [⟨⟨12, []⟩, false⟩, ⟨⟨12, []⟩, false⟩, ⟨⟨12, []⟩, false⟩, ⟨⟨64, [.mat, .vec]⟩, true⟩]
         (.node 605 [⟨⟨12, []⟩, false⟩, ⟨⟨12, []⟩, false⟩, ⟨⟨64, [.mat, .vec]⟩, true⟩]
          (.node 604 [⟨⟨12, []⟩, false⟩, ⟨⟨12, []⟩, false⟩, ⟨⟨12, []⟩, false⟩, ⟨⟨64, [.mat, .vec]⟩, true⟩]
           (.node 603 [⟨⟨12, []⟩, false⟩, ⟨⟨12, []⟩, false⟩, ⟨⟨12, []⟩, false⟩, ⟨⟨64, [.mat, .vec]⟩, true⟩] .leaf .leaf)
           .leaf)
          (.node 606 [⟨⟨12, []⟩, false⟩, ⟨⟨12, []⟩, false⟩, ⟨⟨12, []⟩, false⟩, ⟨⟨64, [.mat, .vec]⟩, true⟩] .leaf .leaf))
         (.node 609 [⟨⟨12, []⟩, false⟩, ⟨⟨12, []⟩, false⟩, ⟨⟨12, []⟩, false⟩, ⟨⟨64, [.mat, .vec]⟩, true⟩]
          (.node 608 [⟨⟨12, []⟩, false⟩, ⟨⟨12, []⟩, false⟩, ⟨⟨64, [.mat, .vec]⟩, true⟩] .leaf .leaf)
          (.node 610 [⟨⟨12, []⟩, false⟩, ⟨⟨12, []⟩, false⟩, ⟨⟨12, []⟩, false⟩, ⟨⟨64, [.mat, .vec]⟩, true⟩] .leaf .leaf)))
        (.node 616 [⟨⟨24, []⟩, false⟩, ⟨⟨64, [.mat, .vec]⟩, true⟩]
         (.node 614 [⟨⟨24, []⟩, false⟩, ⟨⟨64, [.mat, .vec]⟩, true⟩]
          (.node 613 [⟨⟨64, [.mat, .vec]⟩, true⟩]
           (.node 612 [⟨⟨64, [.mat, .vec]⟩, true⟩] .leaf .leaf)
           .leaf)
          (.node 615 [⟨⟨24, []⟩, false⟩, ⟨⟨64, [.mat, .vec]⟩, true⟩] .leaf .leaf))
         (.node 618 [⟨⟨64, [.mat, .vec]⟩, true⟩]
          (.node 617 [⟨⟨64, [.mat, .vec]⟩, true⟩] .leaf .leaf)
          (.node 619 [⟨⟨64, [.mat, .vec]⟩, true⟩] .leaf .leaf)))))
      (.node 638 [⟨⟨128, [.vec]⟩, false⟩, ⟨⟨64, [.vec]⟩, true⟩]
       (.node 629 [⟨⟨64, [.mat, .vec]⟩, false⟩, ⟨⟨4, []⟩, true⟩, ⟨⟨4, []⟩, true⟩]
        (.node 625 [⟨⟨12, []⟩, false⟩, ⟨⟨12, []⟩, false⟩, ⟨⟨64, [.mat, .vec]⟩, true⟩]
         (.node 623 [⟨⟨12, []⟩, false⟩, ⟨⟨12, []⟩, false⟩, ⟨⟨12, []⟩, false⟩, ⟨⟨64, [.mat, .vec]⟩, true⟩]
          (.node 622 [⟨⟨64, [.mat, .vec]⟩, true⟩]
           (.node 621 [⟨⟨64, [.mat, .vec]⟩, true⟩] .leaf .leaf)
           .leaf)
          (.node 624 [⟨⟨12, []⟩, false⟩, ⟨⟨12, []⟩, false⟩, ⟨⟨12, []⟩, false⟩, ⟨⟨64, [.mat, .vec]⟩, true⟩] .leaf .leaf))
         (.node 627 [⟨⟨64, [.mat, .vec]⟩, false⟩, ⟨⟨24, []⟩, true⟩]
          (.node 626 [⟨⟨64, [.mat, .vec]⟩, false⟩, ⟨⟨4, []⟩, true⟩, ⟨⟨4, []⟩, true⟩, ⟨⟨4, []⟩, true⟩, ⟨⟨4, []⟩, true⟩, ⟨⟨4, []⟩, true⟩, ⟨⟨4, []⟩, true⟩] .leaf .leaf)
          (.node 628 [⟨⟨64, [.mat, .vec]⟩, false⟩, ⟨⟨4, []⟩, true⟩, ⟨⟨4, []⟩, true⟩] .leaf .leaf)))
        (.node 634 [⟨⟨64, [.mat, .vec]⟩, false⟩, ⟨⟨96, [.vec]⟩, true⟩]
         (.node 632 [⟨⟨64, [.mat, .vec]⟩, false⟩, ⟨⟨4, []⟩, true⟩]
          (.node 631 [⟨⟨64, [.mat, .vec]⟩, false⟩, ⟨⟨4, []⟩, true⟩]
           (.node 630 [⟨⟨64, [.mat, .vec]⟩, false⟩, ⟨⟨4, []⟩, true⟩, ⟨⟨4, []⟩, true⟩] .leaf .leaf)
           .leaf)
          (.node 633 [⟨⟨64, [.mat, .vec]⟩, false⟩, ⟨⟨16, [.vec]⟩, true⟩] .leaf .leaf))
         (.node 636 [⟨⟨128, [.vec]⟩, false⟩, ⟨⟨16, [.vec]⟩, true⟩]
          (.node 635 [⟨⟨64, [.mat, .vec]⟩, false⟩, ⟨⟨128, [.vec]⟩, true⟩] .leaf .leaf)
          (.node 637 [⟨⟨128, [.vec]⟩, false⟩, ⟨⟨64, [.mat, .vec]⟩, false⟩, ⟨⟨24, []⟩, true⟩] .leaf .leaf))))
       (.node 647 [⟨⟨16, [.vec]⟩, false⟩, ⟨⟨16, [.vec]⟩, true⟩]
        (.node 643 [⟨⟨16, [.vec]⟩, true⟩]
         (.node 641 [⟨⟨16, [.vec]⟩, true⟩]
          (.node 640 [⟨⟨16, [.vec]⟩, true⟩]
           (.node 639 [⟨⟨16, [.vec]⟩, true⟩] .leaf .leaf)
           .leaf)
          (.node 642 [⟨⟨16, [.vec]⟩, true⟩, ⟨⟨12, []⟩, false⟩] .leaf .leaf))
         (.node 645 [⟨⟨12, []⟩, false⟩, ⟨⟨12, []⟩, false⟩, ⟨⟨16, [.vec]⟩, true⟩]
          (.node 644 [⟨⟨16, [.vec]⟩, false⟩, ⟨⟨16, [.vec]⟩, true⟩] .leaf .leaf)
          (.node 646 [⟨⟨16, [.vec]⟩, false⟩] .leaf .leaf)))
        (.node 652 [⟨⟨16, [.vec]⟩, false⟩, ⟨⟨16, [.vec]⟩, false⟩, ⟨⟨16, [.vec]⟩, true⟩]
         (.node 650 [⟨⟨16, [.vec]⟩, false⟩, ⟨⟨16, [.vec]⟩, true⟩]
          (.node 649 [⟨⟨16, [.vec]⟩, false⟩, ⟨⟨16, [.vec]⟩, false⟩]
           (.node 648 [⟨⟨16, [.vec]⟩, true⟩] .leaf .leaf)
           .leaf)
          (.node 651 [⟨⟨16, [.vec]⟩, false⟩, ⟨⟨16, [.vec]⟩, true⟩] .leaf .leaf))
         (.node 654 [⟨⟨16, [.vec]⟩, false⟩]
          (.node 653 [⟨⟨16, [.vec]⟩, false⟩, ⟨⟨16, [.vec]⟩, false⟩, ⟨⟨16, [.vec]⟩, true⟩] .leaf .leaf)
          (.node 655 [⟨⟨16, [.vec]⟩, false⟩, ⟨⟨12, []⟩, true⟩] .leaf .leaf))))))
     (.node 693 [⟨⟨12, []⟩, false⟩, ⟨⟨64, [.mat, .vec]⟩, true⟩]
      (.node 675 [⟨⟨64, [.mat, .vec]⟩, true⟩, ⟨⟨16, [.vec]⟩, false⟩, ⟨⟨12, []⟩, true⟩]
       (.node 666 [⟨⟨16, [.vec]⟩, false⟩, ⟨⟨16, [.vec]⟩, false⟩, ⟨⟨16, [.vec]⟩, true⟩]
        (.node 661 [⟨⟨16, [.vec]⟩, false⟩, ⟨⟨64, [.mat, .vec]⟩, true⟩]
         (.node 659 [⟨⟨16, [.vec]⟩, false⟩, ⟨⟨12, []⟩, true⟩]
          (.node 658 [⟨⟨16, [.vec]⟩, false⟩]
           (.node 657 [⟨⟨16, [.vec]⟩, false⟩] .leaf .leaf)
           .leaf)
          (.node 660 [⟨⟨16, [.vec]⟩, false⟩, ⟨⟨16, [.vec]⟩, false⟩, ⟨⟨16, [.vec]⟩, true⟩] .leaf .leaf))
         (.node 664 [⟨⟨16, [.vec]⟩, false⟩, ⟨⟨36, []⟩, true⟩]
          (.node 663 [⟨⟨16, [.vec]⟩, false⟩, ⟨⟨36, []⟩, true⟩]
           (.node 662 [⟨⟨16, [.vec]⟩, false⟩, ⟨⟨64, [.mat, .vec]⟩, true⟩] .leaf .leaf)
           .leaf)
          (.node 665 [⟨⟨16, [.vec]⟩, false⟩, ⟨⟨16, [.vec]⟩, false⟩, ⟨⟨16, [.vec]⟩, true⟩] .leaf .leaf)))
        (.node 671 [⟨⟨12, []⟩, false⟩, ⟨⟨12, []⟩, false⟩, ⟨⟨16, [.vec]⟩, true⟩]
         (.node 669 [⟨⟨16, [.vec]⟩, false⟩, ⟨⟨16, [.vec]⟩, false⟩, ⟨⟨16, [.vec]⟩, true⟩]
          (.node 668 [⟨⟨16, [.vec]⟩, false⟩, ⟨⟨16, [.vec]⟩, false⟩, ⟨⟨16, [.vec]⟩, true⟩]
           (.node 667 [⟨⟨16, [.vec]⟩, false⟩, ⟨⟨16, [.vec]⟩, false⟩, ⟨⟨16, [.vec]⟩, true⟩] .leaf .leaf)
           .leaf)
          (.node 670 [⟨⟨12, []⟩, false⟩, ⟨⟨16, [.vec]⟩, false⟩, ⟨⟨64, [.mat, .vec]⟩, true⟩] .leaf .leaf))
         (.node 673 [⟨⟨16, [.vec]⟩, false⟩, ⟨⟨12, []⟩, false⟩, ⟨⟨12, []⟩, true⟩]
          (.node 672 [⟨⟨12, []⟩, false⟩, ⟨⟨12, []⟩, false⟩, ⟨⟨12, []⟩, false⟩, ⟨⟨16, [.vec]⟩, true⟩] .leaf .leaf)
          (.node 674 [⟨⟨64, [.mat, .vec]⟩, false⟩, ⟨⟨16, [.vec]⟩, false⟩, ⟨⟨64, [.mat, .vec]⟩, true⟩] .leaf .leaf))))
       (.node 684 [⟨⟨12, []⟩, false⟩]
        (.node 680 [⟨⟨12, []⟩, false⟩, ⟨⟨16, [.vec]⟩, true⟩]
         (.node 678 [⟨⟨12, []⟩, false⟩, ⟨⟨16, [.vec]⟩, true⟩]
          (.node 677 [⟨⟨16, []⟩, false⟩, ⟨⟨16, [.vec]⟩, true⟩]
           (.node 676 [⟨⟨64, [.mat, .vec]⟩, true⟩, ⟨⟨16, [.vec]⟩, false⟩, ⟨⟨12, []⟩, false⟩] .leaf .leaf)
           .leaf)
          (.node 679 [⟨⟨12, []⟩, false⟩, ⟨⟨16, [.vec]⟩, true⟩] .leaf .leaf))
         (.node 682 [⟨⟨12, []⟩, false⟩, ⟨⟨16, [.vec]⟩, true⟩]
          (.node 681 [⟨⟨12, []⟩, false⟩, ⟨⟨16, [.vec]⟩, true⟩] .leaf .leaf)
          (.node 683 [⟨⟨12, []⟩, false⟩, ⟨⟨16, [.vec]⟩, true⟩] .leaf .leaf)))
        (.node 689 [⟨⟨12, []⟩, false⟩, ⟨⟨64, [.mat, .vec]⟩, true⟩]
         (.node 687 [⟨⟨12, []⟩, false⟩, ⟨⟨64, [.mat, .vec]⟩, true⟩]
          (.node 686 [⟨⟨12, []⟩, false⟩, ⟨⟨64, [.mat, .vec]⟩, true⟩]
           (.node 685 [⟨⟨64, [.mat, .vec]⟩, false⟩, ⟨⟨12, []⟩, true⟩] .leaf .leaf)
           .leaf)
          (.node 688 [⟨⟨12, []⟩, false⟩, ⟨⟨64, [.mat, .vec]⟩, true⟩] .leaf .leaf))
         (.node 691 [⟨⟨12, []⟩, false⟩, ⟨⟨64, [.mat, .vec]⟩, true⟩]
          (.node 690 [⟨⟨12, []⟩, false⟩, ⟨⟨64, [.mat, .vec]⟩, true⟩] .leaf .leaf)
          (.node 692 [⟨⟨12, []⟩, false⟩, ⟨⟨64, [.mat, .vec]⟩, true⟩] .leaf .leaf)))))
      (.node 711 [⟨⟨16, []⟩, false⟩]
       (.node 702 [⟨⟨8, []⟩, false⟩]
        (.node 698 [⟨⟨12, []⟩, false⟩, ⟨⟨16, [.vec]⟩, true⟩]
         (.node 696 [⟨⟨12, []⟩, false⟩, ⟨⟨16, [.vec]⟩, true⟩]
          (.node 695 [⟨⟨12, []⟩, false⟩, ⟨⟨16, [.vec]⟩, true⟩]
           (.node 694 [⟨⟨12, []⟩, false⟩, ⟨⟨16, [.vec]⟩, true⟩] .leaf .leaf)
           .leaf)
          (.node 697 [⟨⟨12, []⟩, false⟩, ⟨⟨16, [.vec]⟩, true⟩] .leaf .leaf))
         (.node 700 [⟨⟨16, [.vec]⟩, false⟩]
          (.node 699 [⟨⟨12, []⟩, false⟩, ⟨⟨16, [.vec]⟩, true⟩] .leaf .leaf)
          (.node 701 [⟨⟨12, []⟩, false⟩] .leaf .leaf)))
        (.node 707 [⟨⟨16, []⟩, false⟩, ⟨⟨16, []⟩, false⟩, ⟨⟨16, []⟩, true⟩]
         (.node 705 [⟨⟨16, []⟩, false⟩, ⟨⟨36, []⟩, false⟩, ⟨⟨16, []⟩, true⟩]
          (.node 704 [⟨⟨16, []⟩, false⟩, ⟨⟨16, []⟩, true⟩]
           (.node 703 [⟨⟨16, []⟩, true⟩] .leaf .leaf)
           .leaf)
          (.node 706 [⟨⟨16, []⟩, false⟩, ⟨⟨16, []⟩, false⟩, ⟨⟨16, []⟩, true⟩] .leaf .leaf))
         (.node 709 [⟨⟨16, []⟩, true⟩]
          (.node 708 [⟨⟨16, []⟩, false⟩, ⟨⟨16, []⟩, false⟩, ⟨⟨16, []⟩, false⟩, ⟨⟨16, []⟩, true⟩] .leaf .leaf)
          (.node 710 [⟨⟨16, []⟩, false⟩] .leaf .leaf))))
       (.node 720 [⟨⟨24, []⟩, false⟩, ⟨⟨24, []⟩, false⟩, ⟨⟨24, []⟩, true⟩]
        (.node 716 [⟨⟨16, []⟩, false⟩, ⟨⟨12, []⟩, false⟩]
         (.node 714 [⟨⟨16, []⟩, false⟩, ⟨⟨8, []⟩, true⟩]
          (.node 713 [⟨⟨16, []⟩, false⟩]
           (.node 712 [⟨⟨16, []⟩, false⟩, ⟨⟨8, []⟩, true⟩] .leaf .leaf)
           .leaf)
          (.node 715 [⟨⟨16, []⟩, false⟩, ⟨⟨16, []⟩, false⟩] .leaf .leaf))
         (.node 718 [⟨⟨16, []⟩, false⟩, ⟨⟨16, []⟩, false⟩]
          (.node 717 [⟨⟨16, []⟩, false⟩, ⟨⟨8, []⟩, false⟩] .leaf .leaf)
          (.node 719 [⟨⟨24, []⟩, false⟩, ⟨⟨64, [.mat, .vec]⟩, false⟩, ⟨⟨24, []⟩, true⟩] .leaf .leaf)))
        (.node 725 [⟨⟨24, []⟩, false⟩]
         (.node 723 [⟨⟨24, []⟩, false⟩, ⟨⟨96, [.vec]⟩, false⟩]
          (.node 722 [⟨⟨24, []⟩, false⟩, ⟨⟨24, []⟩, false⟩, ⟨⟨24, []⟩, false⟩, ⟨⟨24, []⟩, true⟩]
           (.node 721 [⟨⟨24, []⟩, false⟩, ⟨⟨24, []⟩, false⟩, ⟨⟨24, []⟩, true⟩] .leaf .leaf)
           .leaf)
          (.node 724 [⟨⟨24, []⟩, true⟩] .leaf .leaf))
         (.node 727 [⟨⟨24, []⟩, false⟩]
          (.node 726 [⟨⟨24, []⟩, false⟩] .leaf .leaf)
          (.node 728 [⟨⟨24, []⟩, false⟩, ⟨⟨12, []⟩, true⟩] .leaf .leaf)))))))
    (.node 802 [⟨⟨36, []⟩, true⟩]
     (.node 766 []
      (.node 748 [⟨⟨16, [.vec]⟩, false⟩, ⟨⟨16, [.vec]⟩, false⟩]
       (.node 739 [⟨⟨12, []⟩, false⟩, ⟨⟨64, [.mat, .vec]⟩, false⟩]
        (.node 734 [⟨⟨12, []⟩, false⟩, ⟨⟨64, [.mat, .vec]⟩, false⟩, ⟨⟨16, [.vec]⟩, false⟩, ⟨⟨12, []⟩, true⟩]
         (.node 732 [⟨⟨24, []⟩, false⟩, ⟨⟨24, []⟩, false⟩]
          (.node 731 [⟨⟨24, []⟩, false⟩, ⟨⟨12, []⟩, false⟩]
           (.node 730 [⟨⟨24, []⟩, false⟩, ⟨⟨16, [.vec]⟩, false⟩] .leaf .leaf)
           .leaf)
          (.node 733 [⟨⟨12, []⟩, false⟩] .leaf .leaf))
         (.node 737 [⟨⟨12, []⟩, false⟩, ⟨⟨64, [.mat, .vec]⟩, false⟩, ⟨⟨16, [.vec]⟩, false⟩, ⟨⟨12, []⟩, true⟩]
          (.node 736 [⟨⟨12, []⟩, false⟩, ⟨⟨64, [.mat, .vec]⟩, false⟩]
           (.node 735 [⟨⟨12, []⟩, false⟩, ⟨⟨64, [.mat, .vec]⟩, false⟩, ⟨⟨16, [.vec]⟩, false⟩, ⟨⟨12, []⟩, true⟩] .leaf .leaf)
           .leaf)
          (.node 738 [⟨⟨12, []⟩, false⟩, ⟨⟨64, [.mat, .vec]⟩, false⟩, ⟨⟨16, [.vec]⟩, false⟩, ⟨⟨12, []⟩, true⟩] .leaf .leaf)))
        (.node 744 [⟨⟨8, []⟩, false⟩, ⟨⟨8, []⟩, false⟩, ⟨⟨16, [.vec]⟩, false⟩, ⟨⟨64, [.mat, .vec]⟩, true⟩]
         (.node 742 [⟨⟨12, []⟩, false⟩, ⟨⟨64, [.mat, .vec]⟩, false⟩, ⟨⟨16, [.vec]⟩, false⟩, ⟨⟨12, []⟩, true⟩]
          (.node 741 [⟨⟨12, []⟩, false⟩, ⟨⟨64, [.mat, .vec]⟩, false⟩, ⟨⟨16, [.vec]⟩, false⟩, ⟨⟨12, []⟩, true⟩]
           (.node 740 [⟨⟨12, []⟩, false⟩, ⟨⟨64, [.mat, .vec]⟩, false⟩, ⟨⟨16, [.vec]⟩, false⟩, ⟨⟨12, []⟩, true⟩] .leaf .leaf)
           .leaf)
          (.node 743 [⟨⟨12, []⟩, false⟩, ⟨⟨64, [.mat, .vec]⟩, false⟩] .leaf .leaf))
         (.node 746 [⟨⟨16, [.vec]⟩, false⟩, ⟨⟨64, [.mat, .vec]⟩, false⟩, ⟨⟨16, [.vec]⟩, true⟩]
          (.node 745 [⟨⟨16, [.vec]⟩, false⟩] .leaf .leaf)
          (.node 747 [⟨⟨16, [.vec]⟩, false⟩, ⟨⟨16, [.vec]⟩, false⟩, ⟨⟨16, [.vec]⟩, true⟩] .leaf .leaf))))
       (.node 757 []
        (.node 753 []
         (.node 751 []
          (.node 750 []
           (.node 749 [⟨⟨16, [.vec]⟩, false⟩, ⟨⟨12, []⟩, false⟩] .leaf .leaf)
           .leaf)
          (.node 752 [] .leaf .leaf))
         (.node 755 []
          (.node 754 [] .leaf .leaf)
          (.node 756 [] .leaf .leaf)))
        (.node 762 []
         (.node 760 []
          (.node 759 []
           (.node 758 [] .leaf .leaf)
           .leaf)
          (.node 761 [] .leaf .leaf))
         (.node 764 []
          (.node 763 [] .leaf .leaf)
          (.node 765 [] .leaf .leaf)))))
      (.node 784 []
       (.node 775 []
        (.node 771 []
         (.node 769 []
          (.node 768 []
           (.node 767 [] .leaf .leaf)
           .leaf)
          (.node 770 [] .leaf .leaf))
         (.node 773 []
          (.node 772 [] .leaf .leaf)
          (.node 774 [] .leaf .leaf)))
        (.node 780 []
         (.node 778 []
          (.node 777 []
           (.node 776 [] .leaf .leaf)
           .leaf)
          (.node 779 [] .leaf .leaf))
         (.node 782 []
          (.node 781 [⟨⟨64, [.mat, .vec]⟩, false⟩, ⟨⟨16, [.vec]⟩, false⟩] .leaf .leaf)
          (.node 783 [] .leaf .leaf))))
       (.node 793 [⟨⟨36, []⟩, false⟩, ⟨⟨8, []⟩, false⟩, ⟨⟨36, []⟩, true⟩]
        (.node 789 [⟨⟨36, []⟩, false⟩, ⟨⟨8, []⟩, false⟩, ⟨⟨36, []⟩, true⟩]
         (.node 787 [⟨⟨12, []⟩, false⟩, ⟨⟨12, []⟩, false⟩, ⟨⟨12, []⟩, true⟩]
          (.node 786 [⟨⟨12, []⟩, false⟩, ⟨⟨12, []⟩, true⟩, ⟨⟨16, [.vec]⟩, false⟩, ⟨⟨4, []⟩, true⟩, ⟨⟨4, []⟩, true⟩]
           (.node 785 [⟨⟨12, []⟩, false⟩, ⟨⟨12, []⟩, false⟩, ⟨⟨12, []⟩, false⟩, ⟨⟨12, []⟩, false⟩, ⟨⟨12, []⟩, false⟩, ⟨⟨4, []⟩, true⟩] .leaf .leaf)
           .leaf)
          (.node 788 [⟨⟨36, []⟩, true⟩, ⟨⟨8, []⟩, false⟩] .leaf .leaf))
         (.node 791 [⟨⟨36, []⟩, true⟩]
          (.node 790 [⟨⟨36, []⟩, true⟩] .leaf .leaf)
          (.node 792 [⟨⟨36, []⟩, true⟩, ⟨⟨8, []⟩, false⟩] .leaf .leaf)))
        (.node 798 [⟨⟨36, []⟩, true⟩]
         (.node 796 [⟨⟨36, []⟩, true⟩]
          (.node 795 [⟨⟨36, []⟩, true⟩, ⟨⟨8, []⟩, false⟩]
           (.node 794 [⟨⟨36, []⟩, true⟩, ⟨⟨8, []⟩, false⟩] .leaf .leaf)
           .leaf)
          (.node 797 [⟨⟨36, []⟩, true⟩] .leaf .leaf))
         (.node 800 [⟨⟨36, []⟩, true⟩, ⟨⟨8, []⟩, false⟩]
          (.node 799 [⟨⟨36, []⟩, false⟩, ⟨⟨36, []⟩, true⟩] .leaf .leaf)
          (.node 801 [⟨⟨36, []⟩, true⟩] .leaf .leaf))))))
     (.node 839 []
      (.node 821 []
       (.node 812 []
        (.node 807 [⟨⟨12, []⟩, false⟩, ⟨⟨16, [.vec]⟩, true⟩]
         (.node 805 [⟨⟨36, []⟩, true⟩]
          (.node 804 [⟨⟨36, []⟩, true⟩, ⟨⟨8, []⟩, false⟩]
           (.node 803 [⟨⟨36, []⟩, true⟩] .leaf .leaf)
           .leaf)
          (.node 806 [⟨⟨12, []⟩, false⟩, ⟨⟨16, [.vec]⟩, true⟩] .leaf .leaf))
         (.node 810 [⟨⟨12, []⟩, false⟩, ⟨⟨16, [.vec]⟩, true⟩]
          (.node 809 [⟨⟨12, []⟩, false⟩, ⟨⟨16, [.vec]⟩, true⟩]
           (.node 808 [⟨⟨12, []⟩, false⟩, ⟨⟨16, [.vec]⟩, true⟩] .leaf .leaf)
           .leaf)
          (.node 811 [⟨⟨12, []⟩, false⟩, ⟨⟨16, [.vec]⟩, true⟩] .leaf .leaf)))
        (.node 817 []
         (.node 815 []
          (.node 814 []
           (.node 813 [] .leaf .leaf)
           .leaf)
          (.node 816 [] .leaf .leaf))
         (.node 819 []
          (.node 818 [] .leaf .leaf)
          (.node 820 [] .leaf .leaf))))
       (.node 830 []
        (.node 826 []
         (.node 824 []
          (.node 823 []
           (.node 822 [] .leaf .leaf)
           .leaf)
          (.node 825 [] .leaf .leaf))
         (.node 828 []
          (.node 827 [] .leaf .leaf)
          (.node 829 [] .leaf .leaf)))
        (.node 835 [⟨⟨8, []⟩, true⟩, ⟨⟨8, []⟩, false⟩]
         (.node 833 []
          (.node 832 []
           (.node 831 [] .leaf .leaf)
           .leaf)
          (.node 834 [] .leaf .leaf))
         (.node 837 []
          (.node 836 [⟨⟨8, []⟩, true⟩, ⟨⟨8, []⟩, false⟩] .leaf .leaf)
          (.node 838 [] .leaf .leaf)))))
      (.node 857 []
       (.node 848 []
        (.node 844 []
         (.node 842 []
          (.node 841 []
           (.node 840 [] .leaf .leaf)
           .leaf)
          (.node 843 [] .leaf .leaf))
         (.node 846 []
          (.node 845 [] .leaf .leaf)
          (.node 847 [] .leaf .leaf)))
        (.node 853 []
         (.node 851 []
          (.node 850 []
           (.node 849 [] .leaf .leaf)
           .leaf)
          (.node 852 [] .leaf .leaf))
         (.node 855 []
          (.node 854 [] .leaf .leaf)
          (.node 856 [] .leaf .leaf))))
       (.node 866 []
        (.node 862 []
         (.node 860 []
          (.node 859 []
           (.node 858 [] .leaf .leaf)
           .leaf)
          (.node 861 [] .leaf .leaf))
         (.node 864 []
          (.node 863 [] .leaf .leaf)
          (.node 865 [] .leaf .leaf)))
        (.node 871 []
         (.node 869 []
          (.node 868 []
           (.node 867 [] .leaf .leaf)
           .leaf)
          (.node 870 [] .leaf .leaf))
         (.node 873 []
          (.node 872 [] .leaf .leaf)
          (.node 874 [] .leaf .leaf))))))))
   (.node 1021 []
    (.node 948 []
     (.node 912 []
      (.node 894 []
       (.node 885 []
        (.node 880 []
         (.node 878 []
          (.node 877 [⟨⟨8, []⟩, true⟩]
           (.node 876 [] .leaf .leaf)
           .leaf)
          (.node 879 [] .leaf .leaf))
         (.node 883 []
          (.node 882 []
           (.node 881 [] .leaf .leaf)
           .leaf)
          (.node 884 [] .leaf .leaf)))
        (.node 890 []
         (.node 888 []
          (.node 887 []
           (.node 886 [] .leaf .leaf)
           .leaf)
          (.node 889 [] .leaf .leaf))
         (.node 892 []
          (.node 891 [] .leaf .leaf)
          (.node 893 [] .leaf .leaf))))
       (.node 903 []
        (.node 899 []
         (.node 897 []
          (.node 896 []
           (.node 895 [] .leaf .leaf)
           .leaf)
          (.node 898 [] .leaf .leaf))
         (.node 901 [⟨⟨12, []⟩, true⟩, ⟨⟨12, []⟩, false⟩]
          (.node 900 [⟨⟨12, []⟩, true⟩, ⟨⟨12, []⟩, false⟩] .leaf .leaf)
          (.node 902 [] .leaf .leaf)))
        (.node 908 []
         (.node 906 []
          (.node 905 []
           (.node 904 [] .leaf .leaf)
           .leaf)
          (.node 907 [] .leaf .leaf))
         (.node 910 []
          (.node 909 [] .leaf .leaf)
          (.node 911 [] .leaf .leaf)))))
      (.node 930 []
       (.node 921 []
        (.node 917 []
         (.node 915 []
          (.node 914 []
           (.node 913 [] .leaf .leaf)
           .leaf)
          (.node 916 [] .leaf .leaf))
         (.node 919 []
          (.node 918 [] .leaf .leaf)
          (.node 920 [] .leaf .leaf)))
        (.node 926 []
         (.node 924 []
          (.node 923 []
           (.node 922 [] .leaf .leaf)
           .leaf)
          (.node 925 [] .leaf .leaf))
         (.node 928 []
          (.node 927 [] .leaf .leaf)
          (.node 929 [] .leaf .leaf))))
       (.node 939 []
        (.node 935 []
         (.node 933 []
          (.node 932 []
           (.node 931 [] .leaf .leaf)
           .leaf)
          (.node 934 [] .leaf .leaf))
         (.node 937 []
          (.node 936 [] .leaf .leaf)
          (.node 938 [] .leaf .leaf)))
        (.node 944 []
         (.node 942 []
          (.node 941 []
           (.node 940 [] .leaf .leaf)
           .leaf)
          (.node 943 [] .leaf .leaf))
         (.node 946 []
          (.node 945 [] .leaf .leaf)
          (.node 947 [] .leaf .leaf))))))
     (.node 985 []
      (.node 967 []
       (.node 958 []
        (.node 953 []
         (.node 951 []
          (.node 950 []
           (.node 949 [] .leaf .leaf)
           .leaf)
          (.node 952 [] .leaf .leaf))
         (.node 956 []
          (.node 955 []
           (.node 954 [] .leaf .leaf)
           .leaf)
          (.node 957 [] .leaf .leaf)))
        (.node 963 [⟨⟨12, []⟩, true⟩]
         (.node 961 []
          (.node 960 [⟨⟨12, []⟩, false⟩]
           (.node 959 [] .leaf .leaf)
           .leaf)
          (.node 962 [] .leaf .leaf))
         (.node 965 []
          (.node 964 [] .leaf .leaf)
          (.node 966 [] .leaf .leaf))))
       (.node 976 []
        (.node 972 []
         (.node 970 []
          (.node 969 []
           (.node 968 [] .leaf .leaf)
           .leaf)
          (.node 971 [] .leaf .leaf))
         (.node 974 []
          (.node 973 [] .leaf .leaf)
          (.node 975 [] .leaf .leaf)))
        (.node 981 []
         (.node 979 []
          (.node 978 []
           (.node 977 [] .leaf .leaf)
           .leaf)
          (.node 980 [] .leaf .leaf))
         (.node 983 []
          (.node 982 [] .leaf .leaf)
          (.node 984 [] .leaf .leaf)))))
      (.node 1003 []
       (.node 994 []
        (.node 990 [⟨⟨16, [.vec]⟩, true⟩, ⟨⟨16, [.vec]⟩, false⟩]
         (.node 988 []
          (.node 987 []
           (.node 986 [] .leaf .leaf)
           .leaf)
          (.node 989 [⟨⟨16, [.vec]⟩, true⟩, ⟨⟨16, [.vec]⟩, false⟩] .leaf .leaf))
         (.node 992 []
          (.node 991 [] .leaf .leaf)
          (.node 993 [] .leaf .leaf)))
        (.node 999 []
         (.node 997 []
          (.node 996 []
           (.node 995 [] .leaf .leaf)
           .leaf)
          (.node 998 [] .leaf .leaf))
         (.node 1001 []
          (.node 1000 [] .leaf .leaf)
          (.node 1002 [] .leaf .leaf))))
       (.node 1012 []
        (.node 1008 []
         (.node 1006 []
          (.node 1005 []
           (.node 1004 [] .leaf .leaf)
           .leaf)
          (.node 1007 [] .leaf .leaf))
         (.node 1010 []
          (.node 1009 [] .leaf .leaf)
          (.node 1011 [] .leaf .leaf)))
        (.node 1017 []
         (.node 1015 []
          (.node 1014 []
           (.node 1013 [] .leaf .leaf)
           .leaf)
          (.node 1016 [] .leaf .leaf))
         (.node 1019 []
          (.node 1018 [] .leaf .leaf)
          (.node 1020 [] .leaf .leaf)))))))
    (.node 1094 []
     (.node 1058 []
      (.node 1040 [⟨⟨8, []⟩, false⟩]
       (.node 1031 []
        (.node 1026 []
         (.node 1024 []
          (.node 1023 []
           (.node 1022 [] .leaf .leaf)
           .leaf)
          (.node 1025 [] .leaf .leaf))
         (.node 1029 []
          (.node 1028 []
           (.node 1027 [] .leaf .leaf)
           .leaf)
          (.node 1030 [] .leaf .leaf)))
        (.node 1036 []
         (.node 1034 []
          (.node 1033 []
           (.node 1032 [] .leaf .leaf)
           .leaf)
          (.node 1035 [] .leaf .leaf))
         (.node 1038 []
          (.node 1037 [⟨⟨16, []⟩, false⟩] .leaf .leaf)
          (.node 1039 [⟨⟨16, [.vec]⟩, true⟩] .leaf .leaf))))
       (.node 1049 []
        (.node 1045 []
         (.node 1043 []
          (.node 1042 [⟨⟨8, []⟩, true⟩, ⟨⟨8, []⟩, false⟩]
           (.node 1041 [⟨⟨8, []⟩, true⟩, ⟨⟨8, []⟩, false⟩] .leaf .leaf)
           .leaf)
          (.node 1044 [] .leaf .leaf))
         (.node 1047 []
          (.node 1046 [] .leaf .leaf)
          (.node 1048 [] .leaf .leaf)))
        (.node 1054 []
         (.node 1052 []
          (.node 1051 []
           (.node 1050 [] .leaf .leaf)
           .leaf)
          (.node 1053 [] .leaf .leaf))
         (.node 1056 []
          (.node 1055 [] .leaf .leaf)
          (.node 1057 [] .leaf .leaf)))))
      (.node 1076 []
       (.node 1067 []
        (.node 1063 []
         (.node 1061 []
          (.node 1060 []
           (.node 1059 [] .leaf .leaf)
           .leaf)
          (.node 1062 [] .leaf .leaf))
         (.node 1065 []
          (.node 1064 [] .leaf .leaf)
          (.node 1066 [] .leaf .leaf)))
        (.node 1072 []
         (.node 1070 []
          (.node 1069 []
           (.node 1068 [] .leaf .leaf)
           .leaf)
          (.node 1071 [] .leaf .leaf))
         (.node 1074 []
          (.node 1073 [] .leaf .leaf)
          (.node 1075 [] .leaf .leaf))))
       (.node 1085 []
        (.node 1081 []
         (.node 1079 []
          (.node 1078 []
           (.node 1077 [] .leaf .leaf)
           .leaf)
          (.node 1080 [] .leaf .leaf))
         (.node 1083 [⟨⟨12, []⟩, true⟩, ⟨⟨12, []⟩, false⟩]
          (.node 1082 [⟨⟨12, []⟩, true⟩, ⟨⟨12, []⟩, false⟩] .leaf .leaf)
          (.node 1084 [] .leaf .leaf)))
        (.node 1090 []
         (.node 1088 []
          (.node 1087 []
           (.node 1086 [] .leaf .leaf)
           .leaf)
          (.node 1089 [] .leaf .leaf))
         (.node 1092 []
          (.node 1091 [] .leaf .leaf)
          (.node 1093 [] .leaf .leaf))))))
     (.node 1130 []
      (.node 1112 []
       (.node 1103 []
        (.node 1099 []
         (.node 1097 []
          (.node 1096 []
           (.node 1095 [] .leaf .leaf)
           .leaf)
          (.node 1098 [] .leaf .leaf))
         (.node 1101 []
          (.node 1100 [] .leaf .leaf)
          (.node 1102 [] .leaf .leaf)))
        (.node 1108 []
         (.node 1106 []
          (.node 1105 []
           (.node 1104 [] .leaf .leaf)
           .leaf)
          (.node 1107 [] .leaf .leaf))
         (.node 1110 []
          (.node 1109 [] .leaf .leaf)
          (.node 1111 [] .leaf .leaf))))
       (.node 1121 []
        (.node 1117 []
         (.node 1115 []
          (.node 1114 []
           (.node 1113 [] .leaf .leaf)
           .leaf)
          (.node 1116 [] .leaf .leaf))
         (.node 1119 []
          (.node 1118 [] .leaf .leaf)
          (.node 1120 [] .leaf .leaf)))
        (.node 1126 []
         (.node 1124 [⟨⟨16, []⟩, true⟩, ⟨⟨16, []⟩, false⟩]
          (.node 1123 []
           (.node 1122 [] .leaf .leaf)
           .leaf)
          (.node 1125 [⟨⟨16, []⟩, true⟩, ⟨⟨16, []⟩, false⟩] .leaf .leaf))
         (.node 1128 []
          (.node 1127 [] .leaf .leaf)
          (.node 1129 [] .leaf .leaf)))))
      (.node 1148 []
       (.node 1139 []
        (.node 1135 []
         (.node 1133 []
          (.node 1132 []
           (.node 1131 [] .leaf .leaf)
           .leaf)
          (.node 1134 [] .leaf .leaf))
         (.node 1137 []
          (.node 1136 [] .leaf .leaf)
          (.node 1138 [] .leaf .leaf)))
        (.node 1144 []
         (.node 1142 []
          (.node 1141 []
           (.node 1140 [] .leaf .leaf)
           .leaf)
          (.node 1143 [] .leaf .leaf))
         (.node 1146 []
          (.node 1145 [] .leaf .leaf)
          (.node 1147 [] .leaf .leaf))))
       (.node 1157 []
        (.node 1153 []
         (.node 1151 []
          (.node 1150 []
           (.node 1149 [] .leaf .leaf)
           .leaf)
          (.node 1152 [] .leaf .leaf))
         (.node 1155 []
          (.node 1154 [] .leaf .leaf)
          (.node 1156 [⟨⟨16, []⟩, false⟩] .leaf .leaf)))
        (.node 1162 []
         (.node 1160 []
          (.node 1159 []
           (.node 1158 [⟨⟨16, [.vec]⟩, true⟩] .leaf .leaf)
           .leaf)
          (.node 1161 [] .leaf .leaf))
         (.node 1164 []
          (.node 1163 [] .leaf .leaf)
          (.node 1165 [] .leaf .leaf))))))))))
 (.node 1750 [⟨⟨12, []⟩, false⟩, ⟨⟨12, []⟩, false⟩, ⟨⟨12, []⟩, true⟩]
  (.node 1458 []
   (.node 1312 []
    (.node 1239 []
     (.node 1203 []
      (.node 1185 []
       (.node 1176 []
        (.node 1171 [⟨⟨24, []⟩, false⟩]
         (.node 1169 []
          (.node 1168 []
           (.node 1167 [] .leaf .leaf)
           .leaf)
          (.node 1170 [] .leaf .leaf))
         (.node 1174 []
          (.node 1173 []
           (.node 1172 [] .leaf .leaf)
           .leaf)
          (.node 1175 [] .leaf .leaf)))
        (.node 1181 []
         (.node 1179 []
          (.node 1178 []
           (.node 1177 [⟨⟨32, []⟩, false⟩] .leaf .leaf)
           .leaf)
          (.node 1180 [] .leaf .leaf))
         (.node 1183 []
          (.node 1182 [] .leaf .leaf)
          (.node 1184 [⟨⟨36, []⟩, true⟩] .leaf .leaf))))
       (.node 1194 []
        (.node 1190 []
         (.node 1188 []
          (.node 1187 []
           (.node 1186 [] .leaf .leaf)
           .leaf)
          (.node 1189 [] .leaf .leaf))
         (.node 1192 []
          (.node 1191 [] .leaf .leaf)
          (.node 1193 [] .leaf .leaf)))
        (.node 1199 []
         (.node 1197 [⟨⟨36, []⟩, false⟩]
          (.node 1196 []
           (.node 1195 [] .leaf .leaf)
           .leaf)
          (.node 1198 [] .leaf .leaf))
         (.node 1201 []
          (.node 1200 [⟨⟨24, []⟩, false⟩] .leaf .leaf)
          (.node 1202 [] .leaf .leaf)))))
      (.node 1221 []
       (.node 1212 []
        (.node 1208 []
         (.node 1206 [⟨⟨48, []⟩, false⟩]
          (.node 1205 []
           (.node 1204 [] .leaf .leaf)
           .leaf)
          (.node 1207 [] .leaf .leaf))
         (.node 1210 []
          (.node 1209 [] .leaf .leaf)
          (.node 1211 [] .leaf .leaf)))
        (.node 1217 []
         (.node 1215 []
          (.node 1214 [⟨⟨64, [.mat, .vec]⟩, true⟩]
           (.node 1213 [] .leaf .leaf)
           .leaf)
          (.node 1216 [] .leaf .leaf))
         (.node 1219 []
          (.node 1218 [] .leaf .leaf)
          (.node 1220 [⟨⟨64, [.mat, .vec]⟩, false⟩] .leaf .leaf))))
       (.node 1230 []
        (.node 1226 []
         (.node 1224 []
          (.node 1223 []
           (.node 1222 [] .leaf .leaf)
           .leaf)
          (.node 1225 [] .leaf .leaf))
         (.node 1228 []
          (.node 1227 [] .leaf .leaf)
          (.node 1229 [] .leaf .leaf)))
        (.node 1235 [⟨⟨64, []⟩, false⟩]
         (.node 1233 []
          (.node 1232 []
           (.node 1231 [] .leaf .leaf)
           .leaf)
          (.node 1234 [] .leaf .leaf))
         (.node 1237 []
          (.node 1236 [] .leaf .leaf)
          (.node 1238 [⟨⟨32, []⟩, false⟩] .leaf .leaf))))))
     (.node 1276 []
      (.node 1258 []
       (.node 1249 []
        (.node 1244 [⟨⟨48, []⟩, false⟩]
         (.node 1242 []
          (.node 1241 []
           (.node 1240 [] .leaf .leaf)
           .leaf)
          (.node 1243 [] .leaf .leaf))
         (.node 1247 []
          (.node 1246 []
           (.node 1245 [] .leaf .leaf)
           .leaf)
          (.node 1248 [] .leaf .leaf)))
        (.node 1254 []
         (.node 1252 []
          (.node 1251 []
           (.node 1250 [] .leaf .leaf)
           .leaf)
          (.node 1253 [] .leaf .leaf))
         (.node 1256 []
          (.node 1255 [] .leaf .leaf)
          (.node 1257 [] .leaf .leaf))))
       (.node 1267 []
        (.node 1263 []
         (.node 1261 [⟨⟨16, [.vec]⟩, true⟩, ⟨⟨64, [.mat, .vec]⟩, true⟩, ⟨⟨12, []⟩, true⟩]
          (.node 1260 [⟨⟨64, [.mat, .vec]⟩, true⟩, ⟨⟨12, []⟩, true⟩]
           (.node 1259 [] .leaf .leaf)
           .leaf)
          (.node 1262 [] .leaf .leaf))
         (.node 1265 []
          (.node 1264 [] .leaf .leaf)
          (.node 1266 [] .leaf .leaf)))
        (.node 1272 []
         (.node 1270 []
          (.node 1269 []
           (.node 1268 [] .leaf .leaf)
           .leaf)
          (.node 1271 [] .leaf .leaf))
         (.node 1274 []
          (.node 1273 [] .leaf .leaf)
          (.node 1275 [] .leaf .leaf)))))
      (.node 1294 [⟨⟨24, []⟩, false⟩, ⟨⟨24, []⟩, false⟩, ⟨⟨24, []⟩, false⟩, ⟨⟨24, []⟩, true⟩]
       (.node 1285 [⟨⟨128, [.vec]⟩, false⟩]
        (.node 1281 []
         (.node 1279 []
          (.node 1278 []
           (.node 1277 [] .leaf .leaf)
           .leaf)
          (.node 1280 [] .leaf .leaf))
         (.node 1283 [⟨⟨96, [.vec]⟩, true⟩]
          (.node 1282 [] .leaf .leaf)
          (.node 1284 [⟨⟨128, [.vec]⟩, true⟩] .leaf .leaf)))
        (.node 1290 []
         (.node 1288 []
          (.node 1287 [⟨⟨128, [.vec]⟩, false⟩, ⟨⟨64, [.vec]⟩, true⟩]
           (.node 1286 [⟨⟨128, [.vec]⟩, false⟩, ⟨⟨24, []⟩, true⟩] .leaf .leaf)
           .leaf)
          (.node 1289 [] .leaf .leaf))
         (.node 1292 [⟨⟨24, []⟩, false⟩, ⟨⟨24, []⟩, false⟩, ⟨⟨24, []⟩, true⟩]
          (.node 1291 [⟨⟨24, []⟩, false⟩, ⟨⟨24, []⟩, true⟩] .leaf .leaf)
          (.node 1293 [⟨⟨24, []⟩, false⟩, ⟨⟨24, []⟩, false⟩, ⟨⟨24, []⟩, true⟩] .leaf .leaf))))
       (.node 1303 [⟨⟨24, []⟩, false⟩]
        (.node 1299 [⟨⟨24, []⟩, false⟩]
         (.node 1297 [⟨⟨24, []⟩, false⟩]
          (.node 1296 [⟨⟨24, []⟩, true⟩]
           (.node 1295 [⟨⟨24, []⟩, false⟩, ⟨⟨96, [.vec]⟩, false⟩] .leaf .leaf)
           .leaf)
          (.node 1298 [⟨⟨24, []⟩, false⟩] .leaf .leaf))
         (.node 1301 [⟨⟨24, []⟩, false⟩, ⟨⟨24, []⟩, false⟩]
          (.node 1300 [⟨⟨24, []⟩, false⟩] .leaf .leaf)
          (.node 1302 [⟨⟨24, []⟩, false⟩] .leaf .leaf)))
        (.node 1308 [⟨⟨24, []⟩, false⟩]
         (.node 1306 []
          (.node 1305 []
           (.node 1304 [⟨⟨24, []⟩, false⟩, ⟨⟨24, []⟩, false⟩] .leaf .leaf)
           .leaf)
          (.node 1307 [⟨⟨24, []⟩, false⟩] .leaf .leaf))
         (.node 1310 []
          (.node 1309 [⟨⟨24, []⟩, false⟩] .leaf .leaf)
          (.node 1311 [] .leaf .leaf)))))))
    (.node 1385 [⟨⟨4, []⟩, true⟩]
     (.node 1349 [⟨⟨24, []⟩, false⟩]
      (.node 1331 []
       (.node 1322 [⟨⟨4, []⟩, true⟩]
        (.node 1317 [⟨⟨4, []⟩, true⟩, ⟨⟨4, []⟩, true⟩, ⟨⟨4, []⟩, true⟩, ⟨⟨4, []⟩, true⟩, ⟨⟨4, []⟩, true⟩, ⟨⟨4, []⟩, true⟩]
         (.node 1315 []
          (.node 1314 []
           (.node 1313 [] .leaf .leaf)
           .leaf)
          (.node 1316 [] .leaf .leaf))
         (.node 1320 [⟨⟨4, []⟩, true⟩, ⟨⟨4, []⟩, true⟩]
          (.node 1319 [⟨⟨4, []⟩, true⟩, ⟨⟨4, []⟩, true⟩]
           (.node 1318 [⟨⟨24, []⟩, true⟩] .leaf .leaf)
           .leaf)
          (.node 1321 [⟨⟨4, []⟩, true⟩, ⟨⟨4, []⟩, true⟩] .leaf .leaf)))
        (.node 1327 []
         (.node 1325 []
          (.node 1324 []
           (.node 1323 [⟨⟨4, []⟩, true⟩] .leaf .leaf)
           .leaf)
          (.node 1326 [] .leaf .leaf))
         (.node 1329 [⟨⟨24, []⟩, false⟩]
          (.node 1328 [⟨⟨24, []⟩, false⟩] .leaf .leaf)
          (.node 1330 [⟨⟨24, []⟩, false⟩] .leaf .leaf))))
       (.node 1340 [⟨⟨4, []⟩, true⟩, ⟨⟨4, []⟩, true⟩]
        (.node 1336 []
         (.node 1334 []
          (.node 1333 []
           (.node 1332 [] .leaf .leaf)
           .leaf)
          (.node 1335 [] .leaf .leaf))
         (.node 1338 [⟨⟨4, []⟩, true⟩, ⟨⟨4, []⟩, true⟩, ⟨⟨4, []⟩, true⟩, ⟨⟨4, []⟩, true⟩, ⟨⟨4, []⟩, true⟩, ⟨⟨4, []⟩, true⟩]
          (.node 1337 [] .leaf .leaf)
          (.node 1339 [⟨⟨24, []⟩, true⟩] .leaf .leaf)))
        (.node 1345 []
         (.node 1343 [⟨⟨4, []⟩, true⟩]
          (.node 1342 [⟨⟨4, []⟩, true⟩, ⟨⟨4, []⟩, true⟩]
           (.node 1341 [⟨⟨4, []⟩, true⟩, ⟨⟨4, []⟩, true⟩] .leaf .leaf)
           .leaf)
          (.node 1344 [⟨⟨4, []⟩, true⟩] .leaf .leaf))
         (.node 1347 []
          (.node 1346 [] .leaf .leaf)
          (.node 1348 [] .leaf .leaf)))))
      (.node 1367 []
       (.node 1358 []
        (.node 1354 []
         (.node 1352 []
          (.node 1351 [⟨⟨24, []⟩, false⟩]
           (.node 1350 [⟨⟨24, []⟩, false⟩] .leaf .leaf)
           .leaf)
          (.node 1353 [] .leaf .leaf))
         (.node 1356 []
          (.node 1355 [] .leaf .leaf)
          (.node 1357 [] .leaf .leaf)))
        (.node 1363 [⟨⟨4, []⟩, true⟩, ⟨⟨4, []⟩, true⟩]
         (.node 1361 [⟨⟨4, []⟩, true⟩, ⟨⟨4, []⟩, true⟩]
          (.node 1360 [⟨⟨24, []⟩, true⟩]
           (.node 1359 [⟨⟨4, []⟩, true⟩, ⟨⟨4, []⟩, true⟩, ⟨⟨4, []⟩, true⟩, ⟨⟨4, []⟩, true⟩, ⟨⟨4, []⟩, true⟩, ⟨⟨4, []⟩, true⟩] .leaf .leaf)
           .leaf)
          (.node 1362 [⟨⟨4, []⟩, true⟩, ⟨⟨4, []⟩, true⟩] .leaf .leaf))
         (.node 1365 [⟨⟨4, []⟩, true⟩]
          (.node 1364 [⟨⟨4, []⟩, true⟩] .leaf .leaf)
          (.node 1366 [] .leaf .leaf))))
       (.node 1376 []
        (.node 1372 [⟨⟨24, []⟩, false⟩]
         (.node 1370 [⟨⟨24, []⟩, false⟩]
          (.node 1369 []
           (.node 1368 [] .leaf .leaf)
           .leaf)
          (.node 1371 [⟨⟨24, []⟩, false⟩] .leaf .leaf))
         (.node 1374 []
          (.node 1373 [] .leaf .leaf)
          (.node 1375 [] .leaf .leaf)))
        (.node 1381 [⟨⟨24, []⟩, true⟩]
         (.node 1379 []
          (.node 1378 []
           (.node 1377 [] .leaf .leaf)
           .leaf)
          (.node 1380 [⟨⟨4, []⟩, true⟩, ⟨⟨4, []⟩, true⟩, ⟨⟨4, []⟩, true⟩, ⟨⟨4, []⟩, true⟩, ⟨⟨4, []⟩, true⟩, ⟨⟨4, []⟩, true⟩] .leaf .leaf))
         (.node 1383 [⟨⟨4, []⟩, true⟩, ⟨⟨4, []⟩, true⟩]
          (.node 1382 [⟨⟨4, []⟩, true⟩, ⟨⟨4, []⟩, true⟩] .leaf .leaf)
          (.node 1384 [⟨⟨4, []⟩, true⟩, ⟨⟨4, []⟩, true⟩] .leaf .leaf))))))
     (.node 1422 [⟨⟨4, []⟩, true⟩]
      (.node 1404 [⟨⟨24, []⟩, false⟩]
       (.node 1395 []
        (.node 1390 []
         (.node 1388 []
          (.node 1387 []
           (.node 1386 [⟨⟨4, []⟩, true⟩] .leaf .leaf)
           .leaf)
          (.node 1389 [] .leaf .leaf))
         (.node 1393 []
          (.node 1392 []
           (.node 1391 [] .leaf .leaf)
           .leaf)
          (.node 1394 [] .leaf .leaf)))
        (.node 1400 []
         (.node 1398 []
          (.node 1397 []
           (.node 1396 [] .leaf .leaf)
           .leaf)
          (.node 1399 [] .leaf .leaf))
         (.node 1402 []
          (.node 1401 [] .leaf .leaf)
          (.node 1403 [] .leaf .leaf))))
       (.node 1413 []
        (.node 1409 []
         (.node 1407 []
          (.node 1406 [⟨⟨24, []⟩, false⟩]
           (.node 1405 [⟨⟨24, []⟩, false⟩] .leaf .leaf)
           .leaf)
          (.node 1408 [] .leaf .leaf))
         (.node 1411 []
          (.node 1410 [] .leaf .leaf)
          (.node 1412 [] .leaf .leaf)))
        (.node 1418 [⟨⟨4, []⟩, true⟩, ⟨⟨4, []⟩, true⟩]
         (.node 1416 [⟨⟨4, []⟩, true⟩, ⟨⟨4, []⟩, true⟩, ⟨⟨4, []⟩, true⟩, ⟨⟨4, []⟩, true⟩, ⟨⟨4, []⟩, true⟩, ⟨⟨4, []⟩, true⟩]
          (.node 1415 []
           (.node 1414 [] .leaf .leaf)
           .leaf)
          (.node 1417 [⟨⟨24, []⟩, true⟩] .leaf .leaf))
         (.node 1420 [⟨⟨4, []⟩, true⟩, ⟨⟨4, []⟩, true⟩]
          (.node 1419 [⟨⟨4, []⟩, true⟩, ⟨⟨4, []⟩, true⟩] .leaf .leaf)
          (.node 1421 [⟨⟨4, []⟩, true⟩] .leaf .leaf)))))
      (.node 1440 []
       (.node 1431 []
        (.node 1427 [⟨⟨16, [.vec]⟩, true⟩]
         (.node 1425 []
          (.node 1424 []
           (.node 1423 [] .leaf .leaf)
           .leaf)
          (.node 1426 [] .leaf .leaf))
         (.node 1429 []
          (.node 1428 [] .leaf .leaf)
          (.node 1430 [] .leaf .leaf)))
        (.node 1436 []
         (.node 1434 []
          (.node 1433 []
           (.node 1432 [] .leaf .leaf)
           .leaf)
          (.node 1435 [] .leaf .leaf))
         (.node 1438 []
          (.node 1437 [] .leaf .leaf)
          (.node 1439 [] .leaf .leaf))))
       (.node 1449 []
        (.node 1445 []
         (.node 1443 []
          (.node 1442 []
           (.node 1441 [] .leaf .leaf)
           .leaf)
          (.node 1444 [] .leaf .leaf))
         (.node 1447 []
          (.node 1446 [] .leaf .leaf)
          (.node 1448 [] .leaf .leaf)))
        (.node 1454 []
         (.node 1452 []
          (.node 1451 []
           (.node 1450 [] .leaf .leaf)
           .leaf)
          (.node 1453 [] .leaf .leaf))
         (.node 1456 []
          (.node 1455 [] .leaf .leaf)
          (.node 1457 [] .leaf .leaf))))))))
   (.node 1604 [⟨⟨64, [.mat, .vec]⟩, true⟩]
    (.node 1531 [⟨⟨16, []⟩, false⟩]
     (.node 1495 []
      (.node 1477 []
       (.node 1468 []
        (.node 1463 []
         (.node 1461 []
          (.node 1460 [⟨⟨16, []⟩, false⟩]
           (.node 1459 [] .leaf .leaf)
           .leaf)
          (.node 1462 [] .leaf .leaf))
         (.node 1466 []
          (.node 1465 []
           (.node 1464 [] .leaf .leaf)
           .leaf)
          (.node 1467 [] .leaf .leaf)))
        (.node 1473 []
         (.node 1471 []
          (.node 1470 []
           (.node 1469 [] .leaf .leaf)
           .leaf)
          (.node 1472 [] .leaf .leaf))
         (.node 1475 []
          (.node 1474 [] .leaf .leaf)
          (.node 1476 [] .leaf .leaf))))
       (.node 1486 []
        (.node 1482 []
         (.node 1480 []
          (.node 1479 []
           (.node 1478 [] .leaf .leaf)
           .leaf)
          (.node 1481 [] .leaf .leaf))
         (.node 1484 []
          (.node 1483 [] .leaf .leaf)
          (.node 1485 [] .leaf .leaf)))
        (.node 1491 []
         (.node 1489 []
          (.node 1488 []
           (.node 1487 [] .leaf .leaf)
           .leaf)
          (.node 1490 [] .leaf .leaf))
         (.node 1493 []
          (.node 1492 [] .leaf .leaf)
          (.node 1494 [] .leaf .leaf)))))
      (.node 1513 [⟨⟨16, []⟩, false⟩]
       (.node 1504 []
        (.node 1500 []
         (.node 1498 []
          (.node 1497 []
           (.node 1496 [] .leaf .leaf)
           .leaf)
          (.node 1499 [] .leaf .leaf))
         (.node 1502 [⟨⟨4, []⟩, true⟩]
          (.node 1501 [] .leaf .leaf)
          (.node 1503 [⟨⟨4, []⟩, true⟩, ⟨⟨4, []⟩, true⟩] .leaf .leaf)))
        (.node 1509 [⟨⟨16, []⟩, false⟩]
         (.node 1507 [⟨⟨16, []⟩, false⟩, ⟨⟨16, []⟩, false⟩, ⟨⟨16, []⟩, true⟩]
          (.node 1506 [⟨⟨16, []⟩, false⟩, ⟨⟨16, []⟩, false⟩, ⟨⟨16, []⟩, true⟩]
           (.node 1505 [⟨⟨16, []⟩, false⟩, ⟨⟨16, []⟩, true⟩] .leaf .leaf)
           .leaf)
          (.node 1508 [⟨⟨16, []⟩, false⟩, ⟨⟨16, []⟩, false⟩, ⟨⟨16, []⟩, false⟩, ⟨⟨16, []⟩, true⟩] .leaf .leaf))
         (.node 1511 [⟨⟨16, []⟩, false⟩]
          (.node 1510 [⟨⟨16, []⟩, false⟩] .leaf .leaf)
          (.node 1512 [⟨⟨16, []⟩, false⟩] .leaf .leaf))))
       (.node 1522 [⟨⟨16, [.vec]⟩, false⟩, ⟨⟨16, [.vec]⟩, false⟩, ⟨⟨16, [.vec]⟩, true⟩]
        (.node 1518 [⟨⟨16, []⟩, false⟩, ⟨⟨16, []⟩, false⟩]
         (.node 1516 [⟨⟨16, []⟩, false⟩]
          (.node 1515 [⟨⟨16, []⟩, false⟩, ⟨⟨16, []⟩, false⟩]
           (.node 1514 [⟨⟨16, []⟩, false⟩] .leaf .leaf)
           .leaf)
          (.node 1517 [⟨⟨16, []⟩, false⟩] .leaf .leaf))
         (.node 1520 [⟨⟨12, []⟩, false⟩, ⟨⟨12, []⟩, false⟩, ⟨⟨12, []⟩, true⟩]
          (.node 1519 [⟨⟨12, []⟩, false⟩, ⟨⟨12, []⟩, false⟩, ⟨⟨12, []⟩, true⟩] .leaf .leaf)
          (.node 1521 [⟨⟨16, [.vec]⟩, false⟩, ⟨⟨16, [.vec]⟩, false⟩, ⟨⟨16, [.vec]⟩, true⟩] .leaf .leaf)))
        (.node 1527 [⟨⟨16, []⟩, false⟩, ⟨⟨16, []⟩, false⟩, ⟨⟨16, []⟩, true⟩]
         (.node 1525 [⟨⟨16, []⟩, false⟩, ⟨⟨36, []⟩, false⟩, ⟨⟨16, []⟩, true⟩]
          (.node 1524 [⟨⟨16, []⟩, false⟩, ⟨⟨16, []⟩, true⟩]
           (.node 1523 [⟨⟨16, []⟩, true⟩] .leaf .leaf)
           .leaf)
          (.node 1526 [⟨⟨16, []⟩, false⟩, ⟨⟨16, []⟩, false⟩, ⟨⟨16, []⟩, true⟩] .leaf .leaf))
         (.node 1529 [⟨⟨16, []⟩, true⟩]
          (.node 1528 [⟨⟨16, []⟩, false⟩, ⟨⟨16, []⟩, false⟩, ⟨⟨16, []⟩, false⟩, ⟨⟨16, []⟩, true⟩] .leaf .leaf)
          (.node 1530 [⟨⟨16, []⟩, false⟩] .leaf .leaf))))))
     (.node 1568 [⟨⟨64, [.mat, .vec]⟩, true⟩, ⟨⟨12, []⟩, false⟩]
      (.node 1550 [⟨⟨64, [.mat, .vec]⟩, false⟩, ⟨⟨64, [.mat, .vec]⟩, true⟩]
       (.node 1541 [⟨⟨64, [.mat, .vec]⟩, true⟩, ⟨⟨12, []⟩, false⟩]
        (.node 1536 [⟨⟨16, []⟩, false⟩, ⟨⟨8, []⟩, false⟩]
         (.node 1534 [⟨⟨16, []⟩, false⟩, ⟨⟨8, []⟩, true⟩]
          (.node 1533 [⟨⟨16, []⟩, false⟩]
           (.node 1532 [⟨⟨16, []⟩, false⟩, ⟨⟨8, []⟩, true⟩] .leaf .leaf)
           .leaf)
          (.node 1535 [⟨⟨16, []⟩, false⟩, ⟨⟨16, []⟩, false⟩] .leaf .leaf))
         (.node 1539 [⟨⟨64, [.mat, .vec]⟩, true⟩, ⟨⟨12, []⟩, false⟩]
          (.node 1538 [⟨⟨16, []⟩, false⟩, ⟨⟨12, []⟩, false⟩]
           (.node 1537 [⟨⟨16, []⟩, false⟩, ⟨⟨16, []⟩, false⟩] .leaf .leaf)
           .leaf)
          (.node 1540 [⟨⟨64, [.mat, .vec]⟩, false⟩, ⟨⟨12, []⟩, false⟩, ⟨⟨64, [.mat, .vec]⟩, true⟩] .leaf .leaf)))
        (.node 1546 [⟨⟨64, [.mat, .vec]⟩, false⟩, ⟨⟨12, []⟩, false⟩, ⟨⟨64, [.mat, .vec]⟩, true⟩]
         (.node 1544 [⟨⟨64, [.mat, .vec]⟩, true⟩]
          (.node 1543 [⟨⟨64, [.mat, .vec]⟩, true⟩]
           (.node 1542 [⟨⟨64, [.mat, .vec]⟩, true⟩] .leaf .leaf)
           .leaf)
          (.node 1545 [⟨⟨64, [.mat, .vec]⟩, true⟩, ⟨⟨12, []⟩, false⟩] .leaf .leaf))
         (.node 1548 [⟨⟨64, [.mat, .vec]⟩, true⟩]
          (.node 1547 [⟨⟨64, [.mat, .vec]⟩, true⟩, ⟨⟨12, []⟩, false⟩] .leaf .leaf)
          (.node 1549 [⟨⟨64, [.mat, .vec]⟩, false⟩, ⟨⟨64, [.mat, .vec]⟩, true⟩] .leaf .leaf))))
       (.node 1559 [⟨⟨64, [.mat, .vec]⟩, false⟩, ⟨⟨64, [.mat, .vec]⟩, true⟩, ⟨⟨12, []⟩, true⟩]
        (.node 1555 [⟨⟨64, [.mat, .vec]⟩, true⟩, ⟨⟨12, []⟩, false⟩, ⟨⟨12, []⟩, false⟩]
         (.node 1553 [⟨⟨64, [.mat, .vec]⟩, true⟩, ⟨⟨12, []⟩, false⟩]
          (.node 1552 [⟨⟨64, [.mat, .vec]⟩, true⟩, ⟨⟨12, []⟩, false⟩]
           (.node 1551 [⟨⟨64, [.mat, .vec]⟩, false⟩, ⟨⟨64, [.mat, .vec]⟩, true⟩] .leaf .leaf)
           .leaf)
          (.node 1554 [⟨⟨64, [.mat, .vec]⟩, true⟩, ⟨⟨12, []⟩, false⟩, ⟨⟨12, []⟩, false⟩] .leaf .leaf))
         (.node 1557 [⟨⟨64, [.mat, .vec]⟩, false⟩, ⟨⟨12, []⟩, true⟩]
          (.node 1556 [⟨⟨64, [.mat, .vec]⟩, true⟩, ⟨⟨12, []⟩, false⟩] .leaf .leaf)
          (.node 1558 [⟨⟨64, [.mat, .vec]⟩, false⟩] .leaf .leaf)))
        (.node 1564 [⟨⟨64, [.mat, .vec]⟩, true⟩]
         (.node 1562 [⟨⟨64, [.mat, .vec]⟩, true⟩]
          (.node 1561 [⟨⟨64, [.mat, .vec]⟩, false⟩, ⟨⟨12, []⟩, false⟩, ⟨⟨64, [.mat, .vec]⟩, true⟩]
           (.node 1560 [⟨⟨64, [.mat, .vec]⟩, true⟩, ⟨⟨12, []⟩, false⟩] .leaf .leaf)
           .leaf)
          (.node 1563 [⟨⟨64, [.mat, .vec]⟩, true⟩] .leaf .leaf))
         (.node 1566 [⟨⟨64, [.mat, .vec]⟩, false⟩, ⟨⟨64, [.mat, .vec]⟩, true⟩]
          (.node 1565 [⟨⟨64, [.mat, .vec]⟩, false⟩, ⟨⟨64, [.mat, .vec]⟩, true⟩] .leaf .leaf)
          (.node 1567 [⟨⟨64, [.mat, .vec]⟩, false⟩, ⟨⟨64, [.mat, .vec]⟩, true⟩] .leaf .leaf)))))
      (.node 1586 [⟨⟨36, []⟩, false⟩, ⟨⟨36, []⟩, true⟩]
       (.node 1577 [⟨⟨36, []⟩, true⟩, ⟨⟨8, []⟩, false⟩]
        (.node 1573 [⟨⟨64, [.mat, .vec]⟩, false⟩, ⟨⟨64, [.mat, .vec]⟩, false⟩, ⟨⟨64, [.mat, .vec]⟩, true⟩]
         (.node 1571 [⟨⟨64, [.mat, .vec]⟩, false⟩, ⟨⟨16, [.vec]⟩, true⟩, ⟨⟨64, [.mat, .vec]⟩, true⟩, ⟨⟨12, []⟩, true⟩]
          (.node 1570 [⟨⟨64, [.mat, .vec]⟩, true⟩, ⟨⟨12, []⟩, false⟩]
           (.node 1569 [⟨⟨64, [.mat, .vec]⟩, true⟩, ⟨⟨12, []⟩, false⟩, ⟨⟨12, []⟩, false⟩] .leaf .leaf)
           .leaf)
          (.node 1572 [⟨⟨64, [.mat, .vec]⟩, false⟩, ⟨⟨64, [.mat, .vec]⟩, false⟩, ⟨⟨64, [.mat, .vec]⟩, true⟩] .leaf .leaf))
         (.node 1575 [⟨⟨36, []⟩, true⟩, ⟨⟨8, []⟩, false⟩]
          (.node 1574 [⟨⟨64, [.mat, .vec]⟩, true⟩] .leaf .leaf)
          (.node 1576 [⟨⟨36, []⟩, false⟩, ⟨⟨8, []⟩, false⟩, ⟨⟨36, []⟩, true⟩] .leaf .leaf)))
        (.node 1582 [⟨⟨36, []⟩, true⟩, ⟨⟨8, []⟩, false⟩]
         (.node 1580 [⟨⟨36, []⟩, false⟩, ⟨⟨8, []⟩, false⟩, ⟨⟨36, []⟩, true⟩]
          (.node 1579 [⟨⟨36, []⟩, true⟩]
           (.node 1578 [⟨⟨36, []⟩, true⟩] .leaf .leaf)
           .leaf)
          (.node 1581 [⟨⟨36, []⟩, true⟩, ⟨⟨8, []⟩, false⟩] .leaf .leaf))
         (.node 1584 [⟨⟨36, []⟩, true⟩]
          (.node 1583 [⟨⟨36, []⟩, true⟩] .leaf .leaf)
          (.node 1585 [⟨⟨36, []⟩, true⟩] .leaf .leaf))))
       (.node 1595 [⟨⟨24, []⟩, true⟩]
        (.node 1591 [⟨⟨24, []⟩, false⟩, ⟨⟨24, []⟩, false⟩, ⟨⟨24, []⟩, true⟩]
         (.node 1589 []
          (.node 1588 []
           (.node 1587 [] .leaf .leaf)
           .leaf)
          (.node 1590 [⟨⟨24, []⟩, false⟩, ⟨⟨64, [.mat, .vec]⟩, false⟩, ⟨⟨24, []⟩, true⟩] .leaf .leaf))
         (.node 1593 [⟨⟨24, []⟩, false⟩, ⟨⟨24, []⟩, false⟩, ⟨⟨24, []⟩, false⟩, ⟨⟨24, []⟩, true⟩]
          (.node 1592 [⟨⟨24, []⟩, false⟩, ⟨⟨24, []⟩, false⟩, ⟨⟨24, []⟩, true⟩] .leaf .leaf)
          (.node 1594 [⟨⟨24, []⟩, false⟩, ⟨⟨96, [.vec]⟩, false⟩] .leaf .leaf)))
        (.node 1600 [⟨⟨24, []⟩, false⟩, ⟨⟨24, []⟩, false⟩]
         (.node 1598 [⟨⟨24, []⟩, false⟩]
          (.node 1597 [⟨⟨24, []⟩, false⟩]
           (.node 1596 [⟨⟨24, []⟩, false⟩] .leaf .leaf)
           .leaf)
          (.node 1599 [⟨⟨24, []⟩, false⟩, ⟨⟨12, []⟩, true⟩] .leaf .leaf))
         (.node 1602 [⟨⟨24, []⟩, false⟩, ⟨⟨24, []⟩, false⟩]
          (.node 1601 [⟨⟨24, []⟩, false⟩, ⟨⟨12, []⟩, false⟩] .leaf .leaf)
          (.node 1603 [⟨⟨24, []⟩, false⟩, ⟨⟨16, [.vec]⟩, false⟩] .leaf .leaf)))))))
    (.node 1677 [⟨⟨128, [.vec]⟩, false⟩, ⟨⟨16, [.vec]⟩, true⟩]
     (.node 1641 []
      (.node 1623 [⟨⟨64, [.mat, .vec]⟩, false⟩, ⟨⟨4, []⟩, true⟩]
       (.node 1614 [⟨⟨64, [.mat, .vec]⟩, true⟩]
        (.node 1609 [⟨⟨64, [.mat, .vec]⟩, true⟩]
         (.node 1607 [⟨⟨24, []⟩, false⟩, ⟨⟨64, [.mat, .vec]⟩, true⟩]
          (.node 1606 [⟨⟨24, []⟩, false⟩, ⟨⟨64, [.mat, .vec]⟩, true⟩]
           (.node 1605 [⟨⟨64, [.mat, .vec]⟩, true⟩] .leaf .leaf)
           .leaf)
          (.node 1608 [⟨⟨24, []⟩, false⟩, ⟨⟨64, [.mat, .vec]⟩, true⟩] .leaf .leaf))
         (.node 1612 [⟨⟨64, [.mat, .vec]⟩, true⟩]
          (.node 1611 [⟨⟨64, [.mat, .vec]⟩, true⟩]
           (.node 1610 [⟨⟨64, [.mat, .vec]⟩, true⟩] .leaf .leaf)
           .leaf)
          (.node 1613 [⟨⟨64, [.mat, .vec]⟩, true⟩] .leaf .leaf)))
        (.node 1619 [⟨⟨64, [.mat, .vec]⟩, false⟩, ⟨⟨24, []⟩, true⟩]
         (.node 1617 [⟨⟨12, []⟩, false⟩, ⟨⟨12, []⟩, false⟩, ⟨⟨64, [.mat, .vec]⟩, true⟩]
          (.node 1616 [⟨⟨12, []⟩, false⟩, ⟨⟨12, []⟩, false⟩, ⟨⟨12, []⟩, false⟩, ⟨⟨64, [.mat, .vec]⟩, true⟩]
           (.node 1615 [⟨⟨12, []⟩, false⟩, ⟨⟨12, []⟩, false⟩, ⟨⟨12, []⟩, false⟩, ⟨⟨64, [.mat, .vec]⟩, true⟩] .leaf .leaf)
           .leaf)
          (.node 1618 [⟨⟨64, [.mat, .vec]⟩, false⟩, ⟨⟨4, []⟩, true⟩, ⟨⟨4, []⟩, true⟩, ⟨⟨4, []⟩, true⟩, ⟨⟨4, []⟩, true⟩, ⟨⟨4, []⟩, true⟩, ⟨⟨4, []⟩, true⟩] .leaf .leaf))
         (.node 1621 [⟨⟨64, [.mat, .vec]⟩, false⟩, ⟨⟨4, []⟩, true⟩, ⟨⟨4, []⟩, true⟩]
          (.node 1620 [⟨⟨64, [.mat, .vec]⟩, false⟩, ⟨⟨4, []⟩, true⟩, ⟨⟨4, []⟩, true⟩] .leaf .leaf)
          (.node 1622 [⟨⟨64, [.mat, .vec]⟩, false⟩, ⟨⟨4, []⟩, true⟩, ⟨⟨4, []⟩, true⟩] .leaf .leaf))))
       (.node 1632 []
        (.node 1628 [⟨⟨64, [.mat, .vec]⟩, false⟩, ⟨⟨16, [.vec]⟩, false⟩]
         (.node 1626 [⟨⟨64, [.mat, .vec]⟩, false⟩]
          (.node 1625 [⟨⟨64, [.mat, .vec]⟩, false⟩]
           (.node 1624 [⟨⟨64, [.mat, .vec]⟩, false⟩, ⟨⟨4, []⟩, true⟩] .leaf .leaf)
           .leaf)
          (.node 1627 [⟨⟨64, [.mat, .vec]⟩, false⟩, ⟨⟨16, [.vec]⟩, true⟩] .leaf .leaf))
         (.node 1630 []
          (.node 1629 [] .leaf .leaf)
          (.node 1631 [] .leaf .leaf)))
        (.node 1637 []
         (.node 1635 []
          (.node 1634 []
           (.node 1633 [] .leaf .leaf)
           .leaf)
          (.node 1636 [] .leaf .leaf))
         (.node 1639 []
          (.node 1638 [] .leaf .leaf)
          (.node 1640 [] .leaf .leaf)))))
      (.node 1659 []
       (.node 1650 []
        (.node 1646 []
         (.node 1644 []
          (.node 1643 []
           (.node 1642 [] .leaf .leaf)
           .leaf)
          (.node 1645 [] .leaf .leaf))
         (.node 1648 []
          (.node 1647 [] .leaf .leaf)
          (.node 1649 [] .leaf .leaf)))
        (.node 1655 []
         (.node 1653 []
          (.node 1652 []
           (.node 1651 [] .leaf .leaf)
           .leaf)
          (.node 1654 [] .leaf .leaf))
         (.node 1657 []
          (.node 1656 [] .leaf .leaf)
          (.node 1658 [] .leaf .leaf))))
       (.node 1668 [⟨⟨12, []⟩, false⟩, ⟨⟨64, [.mat, .vec]⟩, true⟩]
        (.node 1664 [⟨⟨12, []⟩, false⟩, ⟨⟨64, [.mat, .vec]⟩, true⟩]
         (.node 1662 [⟨⟨12, []⟩, false⟩, ⟨⟨64, [.mat, .vec]⟩, true⟩]
          (.node 1661 [⟨⟨12, []⟩, false⟩, ⟨⟨64, [.mat, .vec]⟩, true⟩]
           (.node 1660 [⟨⟨64, [.mat, .vec]⟩, false⟩, ⟨⟨12, []⟩, true⟩] .leaf .leaf)
           .leaf)
          (.node 1663 [⟨⟨12, []⟩, false⟩, ⟨⟨64, [.mat, .vec]⟩, true⟩] .leaf .leaf))
         (.node 1666 [⟨⟨12, []⟩, false⟩, ⟨⟨64, [.mat, .vec]⟩, true⟩]
          (.node 1665 [⟨⟨12, []⟩, false⟩, ⟨⟨64, [.mat, .vec]⟩, true⟩] .leaf .leaf)
          (.node 1667 [⟨⟨12, []⟩, false⟩, ⟨⟨64, [.mat, .vec]⟩, true⟩] .leaf .leaf)))
        (.node 1673 [⟨⟨12, []⟩, false⟩, ⟨⟨16, [.vec]⟩, true⟩]
         (.node 1671 [⟨⟨12, []⟩, false⟩, ⟨⟨16, [.vec]⟩, true⟩]
          (.node 1670 [⟨⟨12, []⟩, false⟩, ⟨⟨16, [.vec]⟩, true⟩]
           (.node 1669 [⟨⟨12, []⟩, false⟩, ⟨⟨16, [.vec]⟩, true⟩] .leaf .leaf)
           .leaf)
          (.node 1672 [⟨⟨12, []⟩, false⟩, ⟨⟨16, [.vec]⟩, true⟩] .leaf .leaf))
         (.node 1675 [⟨⟨64, [.mat, .vec]⟩, false⟩, ⟨⟨96, [.vec]⟩, true⟩]
          (.node 1674 [⟨⟨12, []⟩, false⟩, ⟨⟨16, [.vec]⟩, true⟩] .leaf .leaf)
          (.node 1676 [⟨⟨64, [.mat, .vec]⟩, false⟩, ⟨⟨128, [.vec]⟩, true⟩] .leaf .leaf))))))
     (.node 1714 [⟨⟨8, []⟩, false⟩]
      (.node 1696 [⟨⟨8, []⟩, false⟩, ⟨⟨8, []⟩, true⟩]
       (.node 1687 [⟨⟨8, []⟩, false⟩, ⟨⟨8, []⟩, true⟩]
        (.node 1682 [⟨⟨8, []⟩, true⟩]
         (.node 1680 [⟨⟨8, []⟩, false⟩, ⟨⟨8, []⟩, true⟩]
          (.node 1679 [⟨⟨128, [.vec]⟩, false⟩, ⟨⟨64, [.vec]⟩, true⟩]
           (.node 1678 [⟨⟨128, [.vec]⟩, false⟩, ⟨⟨64, [.mat, .vec]⟩, false⟩, ⟨⟨24, []⟩, true⟩] .leaf .leaf)
           .leaf)
          (.node 1681 [⟨⟨8, []⟩, false⟩, ⟨⟨8, []⟩, true⟩] .leaf .leaf))
         (.node 1685 [⟨⟨8, []⟩, false⟩, ⟨⟨8, []⟩, false⟩]
          (.node 1684 [⟨⟨8, []⟩, false⟩, ⟨⟨8, []⟩, false⟩]
           (.node 1683 [⟨⟨8, []⟩, true⟩] .leaf .leaf)
           .leaf)
          (.node 1686 [⟨⟨8, []⟩, false⟩, ⟨⟨8, []⟩, false⟩, ⟨⟨8, []⟩, true⟩] .leaf .leaf)))
        (.node 1692 [⟨⟨8, []⟩, false⟩, ⟨⟨8, []⟩, false⟩, ⟨⟨8, []⟩, true⟩]
         (.node 1690 [⟨⟨8, []⟩, false⟩, ⟨⟨8, []⟩, false⟩, ⟨⟨8, []⟩, true⟩]
          (.node 1689 [⟨⟨8, []⟩, false⟩, ⟨⟨8, []⟩, true⟩]
           (.node 1688 [⟨⟨8, []⟩, false⟩, ⟨⟨8, []⟩, false⟩, ⟨⟨8, []⟩, true⟩] .leaf .leaf)
           .leaf)
          (.node 1691 [⟨⟨8, []⟩, false⟩, ⟨⟨8, []⟩, true⟩] .leaf .leaf))
         (.node 1694 [⟨⟨8, []⟩, false⟩, ⟨⟨8, []⟩, false⟩, ⟨⟨8, []⟩, true⟩]
          (.node 1693 [⟨⟨8, []⟩, false⟩, ⟨⟨8, []⟩, true⟩] .leaf .leaf)
          (.node 1695 [⟨⟨8, []⟩, false⟩, ⟨⟨8, []⟩, false⟩, ⟨⟨8, []⟩, true⟩] .leaf .leaf))))
       (.node 1705 [⟨⟨8, []⟩, false⟩, ⟨⟨8, []⟩, false⟩, ⟨⟨8, []⟩, true⟩]
        (.node 1701 [⟨⟨8, []⟩, false⟩, ⟨⟨8, []⟩, false⟩, ⟨⟨8, []⟩, true⟩]
         (.node 1699 [⟨⟨8, []⟩, false⟩, ⟨⟨8, []⟩, false⟩, ⟨⟨8, []⟩, true⟩]
          (.node 1698 [⟨⟨8, []⟩, false⟩, ⟨⟨8, []⟩, true⟩]
           (.node 1697 [⟨⟨8, []⟩, false⟩, ⟨⟨8, []⟩, false⟩, ⟨⟨8, []⟩, true⟩] .leaf .leaf)
           .leaf)
          (.node 1700 [⟨⟨8, []⟩, false⟩, ⟨⟨8, []⟩, true⟩] .leaf .leaf))
         (.node 1703 [⟨⟨8, []⟩, false⟩, ⟨⟨8, []⟩, false⟩, ⟨⟨8, []⟩, true⟩]
          (.node 1702 [⟨⟨8, []⟩, false⟩, ⟨⟨8, []⟩, false⟩, ⟨⟨8, []⟩, true⟩] .leaf .leaf)
          (.node 1704 [⟨⟨8, []⟩, false⟩, ⟨⟨8, []⟩, true⟩] .leaf .leaf)))
        (.node 1710 [⟨⟨8, []⟩, false⟩, ⟨⟨8, []⟩, false⟩, ⟨⟨8, []⟩, true⟩]
         (.node 1708 [⟨⟨8, []⟩, false⟩, ⟨⟨8, []⟩, true⟩]
          (.node 1707 [⟨⟨8, []⟩, false⟩, ⟨⟨8, []⟩, false⟩, ⟨⟨8, []⟩, true⟩]
           (.node 1706 [⟨⟨8, []⟩, false⟩, ⟨⟨8, []⟩, true⟩] .leaf .leaf)
           .leaf)
          (.node 1709 [⟨⟨8, []⟩, false⟩, ⟨⟨8, []⟩, false⟩, ⟨⟨8, []⟩, true⟩] .leaf .leaf))
         (.node 1712 [⟨⟨8, []⟩, false⟩, ⟨⟨8, []⟩, false⟩]
          (.node 1711 [⟨⟨8, []⟩, false⟩, ⟨⟨8, []⟩, false⟩] .leaf .leaf)
          (.node 1713 [⟨⟨8, []⟩, true⟩] .leaf .leaf)))))
      (.node 1732 [⟨⟨12, []⟩, false⟩, ⟨⟨12, []⟩, true⟩]
       (.node 1723 [⟨⟨12, []⟩, true⟩]
        (.node 1719 [⟨⟨8, []⟩, false⟩, ⟨⟨8, []⟩, true⟩]
         (.node 1717 [⟨⟨8, []⟩, false⟩, ⟨⟨8, []⟩, false⟩, ⟨⟨8, []⟩, true⟩]
          (.node 1716 [⟨⟨8, []⟩, false⟩, ⟨⟨8, []⟩, false⟩, ⟨⟨8, []⟩, true⟩]
           (.node 1715 [⟨⟨8, []⟩, false⟩, ⟨⟨8, []⟩, false⟩] .leaf .leaf)
           .leaf)
          (.node 1718 [⟨⟨8, []⟩, true⟩] .leaf .leaf))
         (.node 1721 [⟨⟨12, []⟩, false⟩, ⟨⟨12, []⟩, true⟩]
          (.node 1720 [⟨⟨16, []⟩, false⟩, ⟨⟨12, []⟩, true⟩] .leaf .leaf)
          (.node 1722 [⟨⟨12, []⟩, true⟩] .leaf .leaf)))
        (.node 1728 [⟨⟨12, []⟩, false⟩, ⟨⟨12, []⟩, true⟩]
         (.node 1726 [⟨⟨12, []⟩, false⟩]
          (.node 1725 [⟨⟨12, []⟩, false⟩]
           (.node 1724 [⟨⟨12, []⟩, false⟩, ⟨⟨12, []⟩, false⟩] .leaf .leaf)
           .leaf)
          (.node 1727 [⟨⟨12, []⟩, false⟩, ⟨⟨12, []⟩, false⟩, ⟨⟨12, []⟩, true⟩] .leaf .leaf))
         (.node 1730 [⟨⟨12, []⟩, false⟩, ⟨⟨12, []⟩, true⟩]
          (.node 1729 [⟨⟨12, []⟩, false⟩, ⟨⟨12, []⟩, false⟩, ⟨⟨12, []⟩, true⟩] .leaf .leaf)
          (.node 1731 [⟨⟨12, []⟩, false⟩, ⟨⟨12, []⟩, false⟩, ⟨⟨12, []⟩, true⟩] .leaf .leaf))))
       (.node 1741 [⟨⟨12, []⟩, false⟩, ⟨⟨12, []⟩, true⟩]
        (.node 1737 [⟨⟨12, []⟩, false⟩, ⟨⟨12, []⟩, true⟩]
         (.node 1735 [⟨⟨12, []⟩, false⟩, ⟨⟨12, []⟩, false⟩, ⟨⟨12, []⟩, true⟩]
          (.node 1734 [⟨⟨12, []⟩, false⟩, ⟨⟨12, []⟩, true⟩]
           (.node 1733 [⟨⟨12, []⟩, false⟩, ⟨⟨12, []⟩, false⟩, ⟨⟨12, []⟩, true⟩] .leaf .leaf)
           .leaf)
          (.node 1736 [⟨⟨12, []⟩, false⟩, ⟨⟨12, []⟩, false⟩, ⟨⟨12, []⟩, true⟩] .leaf .leaf))
         (.node 1739 [⟨⟨12, []⟩, false⟩, ⟨⟨12, []⟩, true⟩]
          (.node 1738 [⟨⟨12, []⟩, false⟩, ⟨⟨12, []⟩, false⟩, ⟨⟨12, []⟩, true⟩] .leaf .leaf)
          (.node 1740 [⟨⟨12, []⟩, false⟩, ⟨⟨12, []⟩, false⟩, ⟨⟨12, []⟩, true⟩] .leaf .leaf)))
        (.node 1746 [⟨⟨12, []⟩, false⟩, ⟨⟨12, []⟩, false⟩, ⟨⟨12, []⟩, true⟩]
         (.node 1744 [⟨⟨12, []⟩, false⟩, ⟨⟨12, []⟩, false⟩, ⟨⟨12, []⟩, true⟩]
          (.node 1743 [⟨⟨12, []⟩, false⟩, ⟨⟨12, []⟩, false⟩, ⟨⟨12, []⟩, true⟩]
           (.node 1742 [⟨⟨12, []⟩, false⟩, ⟨⟨12, []⟩, false⟩, ⟨⟨12, []⟩, true⟩] .leaf .leaf)
           .leaf)
          (.node 1745 [⟨⟨12, []⟩, false⟩, ⟨⟨12, []⟩, true⟩] .leaf .leaf))
         (.node 1748 [⟨⟨12, []⟩, false⟩, ⟨⟨12, []⟩, false⟩, ⟨⟨12, []⟩, true⟩]
          (.node 1747 [⟨⟨12, []⟩, false⟩, ⟨⟨12, []⟩, true⟩] .leaf .leaf)
          (.node 1749 [⟨⟨12, []⟩, false⟩, ⟨⟨12, []⟩, true⟩] .leaf .leaf)))))))))
  (.node 2042 [⟨⟨12, []⟩, false⟩, ⟨⟨12, []⟩, true⟩]
   (.node 1896 [⟨⟨48, []⟩, true⟩]
    (.node 1823 [⟨⟨36, []⟩, false⟩, ⟨⟨36, []⟩, true⟩]
     (.node 1787 [⟨⟨16, []⟩, false⟩, ⟨⟨16, []⟩, false⟩]
      (.node 1769 [⟨⟨16, []⟩, false⟩, ⟨⟨16, []⟩, false⟩, ⟨⟨16, []⟩, true⟩]
       (.node 1760 [⟨⟨12, []⟩, false⟩, ⟨⟨12, []⟩, true⟩]
        (.node 1755 [⟨⟨12, []⟩, false⟩]
         (.node 1753 [⟨⟨12, []⟩, false⟩, ⟨⟨12, []⟩, false⟩]
          (.node 1752 [⟨⟨12, []⟩, false⟩, ⟨⟨12, []⟩, false⟩]
           (.node 1751 [⟨⟨12, []⟩, false⟩, ⟨⟨12, []⟩, false⟩, ⟨⟨12, []⟩, true⟩] .leaf .leaf)
           .leaf)
          (.node 1754 [⟨⟨12, []⟩, true⟩] .leaf .leaf))
         (.node 1758 [⟨⟨12, []⟩, false⟩, ⟨⟨12, []⟩, false⟩, ⟨⟨12, []⟩, true⟩]
          (.node 1757 [⟨⟨12, []⟩, false⟩, ⟨⟨12, []⟩, false⟩, ⟨⟨12, []⟩, true⟩]
           (.node 1756 [⟨⟨12, []⟩, false⟩, ⟨⟨12, []⟩, false⟩] .leaf .leaf)
           .leaf)
          (.node 1759 [⟨⟨12, []⟩, true⟩] .leaf .leaf)))
        (.node 1765 [⟨⟨16, []⟩, false⟩, ⟨⟨16, []⟩, false⟩, ⟨⟨16, []⟩, true⟩]
         (.node 1763 [⟨⟨16, []⟩, true⟩]
          (.node 1762 [⟨⟨16, []⟩, false⟩, ⟨⟨16, []⟩, true⟩]
           (.node 1761 [⟨⟨12, []⟩, false⟩, ⟨⟨16, []⟩, true⟩] .leaf .leaf)
           .leaf)
          (.node 1764 [⟨⟨16, []⟩, true⟩] .leaf .leaf))
         (.node 1767 [⟨⟨16, []⟩, false⟩, ⟨⟨16, []⟩, false⟩, ⟨⟨16, []⟩, true⟩]
          (.node 1766 [⟨⟨16, []⟩, false⟩, ⟨⟨16, []⟩, true⟩] .leaf .leaf)
          (.node 1768 [⟨⟨16, []⟩, false⟩, ⟨⟨16, []⟩, true⟩] .leaf .leaf))))
       (.node 1778 [⟨⟨16, []⟩, false⟩, ⟨⟨16, []⟩, false⟩, ⟨⟨16, []⟩, true⟩]
        (.node 1774 [⟨⟨16, []⟩, false⟩, ⟨⟨16, []⟩, true⟩]
         (.node 1772 [⟨⟨16, []⟩, false⟩, ⟨⟨16, []⟩, true⟩]
          (.node 1771 [⟨⟨16, []⟩, false⟩, ⟨⟨16, []⟩, false⟩, ⟨⟨16, []⟩, true⟩]
           (.node 1770 [⟨⟨16, []⟩, false⟩, ⟨⟨16, []⟩, true⟩] .leaf .leaf)
           .leaf)
          (.node 1773 [⟨⟨16, []⟩, false⟩, ⟨⟨16, []⟩, false⟩, ⟨⟨16, []⟩, true⟩] .leaf .leaf))
         (.node 1776 [⟨⟨16, []⟩, false⟩, ⟨⟨16, []⟩, true⟩]
          (.node 1775 [⟨⟨16, []⟩, false⟩, ⟨⟨16, []⟩, false⟩, ⟨⟨16, []⟩, true⟩] .leaf .leaf)
          (.node 1777 [⟨⟨16, []⟩, false⟩, ⟨⟨16, []⟩, false⟩, ⟨⟨16, []⟩, true⟩] .leaf .leaf)))
        (.node 1783 [⟨⟨16, []⟩, false⟩, ⟨⟨16, []⟩, false⟩, ⟨⟨16, []⟩, true⟩]
         (.node 1781 [⟨⟨16, []⟩, false⟩, ⟨⟨16, []⟩, false⟩, ⟨⟨16, []⟩, true⟩]
          (.node 1780 [⟨⟨16, []⟩, false⟩, ⟨⟨16, []⟩, true⟩]
           (.node 1779 [⟨⟨16, []⟩, false⟩, ⟨⟨16, []⟩, false⟩, ⟨⟨16, []⟩, true⟩] .leaf .leaf)
           .leaf)
          (.node 1782 [⟨⟨16, []⟩, false⟩, ⟨⟨16, []⟩, true⟩] .leaf .leaf))
         (.node 1785 [⟨⟨16, []⟩, false⟩, ⟨⟨16, []⟩, false⟩, ⟨⟨16, []⟩, true⟩]
          (.node 1784 [⟨⟨16, []⟩, false⟩, ⟨⟨16, []⟩, true⟩] .leaf .leaf)
          (.node 1786 [⟨⟨16, []⟩, false⟩, ⟨⟨16, []⟩, false⟩, ⟨⟨16, []⟩, true⟩] .leaf .leaf)))))
      (.node 1805 [⟨⟨16, [.vec]⟩, true⟩]
       (.node 1796 [⟨⟨16, [.vec]⟩, true⟩]
        (.node 1792 [⟨⟨16, []⟩, false⟩, ⟨⟨16, []⟩, true⟩]
         (.node 1790 [⟨⟨16, []⟩, false⟩, ⟨⟨16, []⟩, false⟩, ⟨⟨16, []⟩, true⟩]
          (.node 1789 [⟨⟨16, []⟩, false⟩, ⟨⟨16, []⟩, false⟩, ⟨⟨16, []⟩, true⟩]
           (.node 1788 [⟨⟨16, []⟩, false⟩, ⟨⟨16, []⟩, false⟩] .leaf .leaf)
           .leaf)
          (.node 1791 [⟨⟨16, []⟩, true⟩] .leaf .leaf))
         (.node 1794 [⟨⟨16, [.vec]⟩, false⟩, ⟨⟨16, [.vec]⟩, true⟩]
          (.node 1793 [⟨⟨16, []⟩, false⟩, ⟨⟨16, [.vec]⟩, true⟩] .leaf .leaf)
          (.node 1795 [⟨⟨16, [.vec]⟩, true⟩] .leaf .leaf)))
        (.node 1801 [⟨⟨16, [.vec]⟩, true⟩]
         (.node 1799 [⟨⟨16, [.vec]⟩, false⟩, ⟨⟨8, []⟩, false⟩, ⟨⟨8, []⟩, true⟩]
          (.node 1798 [⟨⟨16, [.vec]⟩, false⟩, ⟨⟨16, [.vec]⟩, false⟩, ⟨⟨16, [.vec]⟩, true⟩]
           (.node 1797 [⟨⟨16, [.vec]⟩, true⟩] .leaf .leaf)
           .leaf)
          (.node 1800 [⟨⟨16, [.vec]⟩, false⟩, ⟨⟨16, [.vec]⟩, true⟩] .leaf .leaf))
         (.node 1803 [⟨⟨16, [.vec]⟩, false⟩, ⟨⟨16, [.vec]⟩, true⟩]
          (.node 1802 [⟨⟨16, [.vec]⟩, true⟩] .leaf .leaf)
          (.node 1804 [⟨⟨16, [.vec]⟩, true⟩] .leaf .leaf))))
       (.node 1814 [⟨⟨24, []⟩, false⟩, ⟨⟨24, []⟩, true⟩]
        (.node 1810 [⟨⟨24, []⟩, true⟩]
         (.node 1808 [⟨⟨8, []⟩, false⟩, ⟨⟨16, [.vec]⟩, false⟩, ⟨⟨8, []⟩, false⟩]
          (.node 1807 [⟨⟨16, [.vec]⟩, false⟩]
           (.node 1806 [⟨⟨16, [.vec]⟩, false⟩] .leaf .leaf)
           .leaf)
          (.node 1809 [⟨⟨24, []⟩, false⟩, ⟨⟨24, []⟩, true⟩] .leaf .leaf))
         (.node 1812 [⟨⟨24, []⟩, false⟩, ⟨⟨24, []⟩, false⟩, ⟨⟨36, []⟩, true⟩]
          (.node 1811 [⟨⟨24, []⟩, false⟩, ⟨⟨24, []⟩, true⟩] .leaf .leaf)
          (.node 1813 [⟨⟨24, []⟩, false⟩, ⟨⟨8, []⟩, false⟩, ⟨⟨12, []⟩, true⟩] .leaf .leaf)))
        (.node 1819 [⟨⟨32, [.vec]⟩, false⟩, ⟨⟨32, []⟩, false⟩, ⟨⟨64, [.mat, .vec]⟩, true⟩]
         (.node 1817 [⟨⟨32, [.vec]⟩, true⟩]
          (.node 1816 [⟨⟨32, [.vec]⟩, false⟩, ⟨⟨32, [.vec]⟩, true⟩]
           (.node 1815 [⟨⟨24, []⟩, true⟩] .leaf .leaf)
           .leaf)
          (.node 1818 [⟨⟨32, []⟩, false⟩, ⟨⟨32, [.vec]⟩, true⟩] .leaf .leaf))
         (.node 1821 [⟨⟨32, [.vec]⟩, false⟩, ⟨⟨32, []⟩, true⟩]
          (.node 1820 [⟨⟨32, [.vec]⟩, false⟩, ⟨⟨8, []⟩, false⟩, ⟨⟨16, [.vec]⟩, true⟩] .leaf .leaf)
          (.node 1822 [⟨⟨32, [.vec]⟩, true⟩] .leaf .leaf))))))
     (.node 1860 [⟨⟨64, [.mat, .vec]⟩, false⟩, ⟨⟨36, []⟩, true⟩]
      (.node 1842 [⟨⟨24, []⟩, true⟩]
       (.node 1833 [⟨⟨36, []⟩, true⟩]
        (.node 1828 [⟨⟨36, []⟩, false⟩, ⟨⟨36, []⟩, true⟩]
         (.node 1826 [⟨⟨36, []⟩, true⟩]
          (.node 1825 [⟨⟨36, []⟩, true⟩]
           (.node 1824 [⟨⟨36, []⟩, true⟩] .leaf .leaf)
           .leaf)
          (.node 1827 [⟨⟨36, []⟩, false⟩, ⟨⟨36, []⟩, false⟩, ⟨⟨36, []⟩, true⟩] .leaf .leaf))
         (.node 1831 [⟨⟨36, []⟩, false⟩]
          (.node 1830 [⟨⟨36, []⟩, false⟩, ⟨⟨12, []⟩, false⟩, ⟨⟨12, []⟩, true⟩]
           (.node 1829 [⟨⟨36, []⟩, true⟩] .leaf .leaf)
           .leaf)
          (.node 1832 [⟨⟨36, []⟩, false⟩, ⟨⟨16, [.vec]⟩, true⟩] .leaf .leaf)))
        (.node 1838 [⟨⟨12, []⟩, false⟩, ⟨⟨36, []⟩, false⟩, ⟨⟨12, []⟩, false⟩]
         (.node 1836 [⟨⟨36, []⟩, true⟩]
          (.node 1835 [⟨⟨36, []⟩, false⟩, ⟨⟨36, []⟩, true⟩]
           (.node 1834 [⟨⟨36, []⟩, false⟩] .leaf .leaf)
           .leaf)
          (.node 1837 [⟨⟨36, []⟩, true⟩] .leaf .leaf))
         (.node 1840 [⟨⟨36, []⟩, true⟩]
          (.node 1839 [⟨⟨36, []⟩, false⟩, ⟨⟨36, []⟩, true⟩] .leaf .leaf)
          (.node 1841 [⟨⟨24, []⟩, false⟩, ⟨⟨24, []⟩, true⟩] .leaf .leaf))))
       (.node 1851 [⟨⟨48, [.vec]⟩, false⟩, ⟨⟨48, []⟩, false⟩, ⟨⟨64, [.mat, .vec]⟩, true⟩]
        (.node 1847 [⟨⟨24, []⟩, true⟩]
         (.node 1845 [⟨⟨24, []⟩, false⟩, ⟨⟨12, []⟩, false⟩, ⟨⟨8, []⟩, true⟩]
          (.node 1844 [⟨⟨24, []⟩, false⟩, ⟨⟨24, []⟩, false⟩, ⟨⟨16, [.vec]⟩, true⟩]
           (.node 1843 [⟨⟨24, []⟩, false⟩, ⟨⟨24, []⟩, true⟩] .leaf .leaf)
           .leaf)
          (.node 1846 [⟨⟨24, []⟩, false⟩, ⟨⟨24, []⟩, true⟩] .leaf .leaf))
         (.node 1849 [⟨⟨48, [.vec]⟩, true⟩]
          (.node 1848 [⟨⟨48, [.vec]⟩, false⟩, ⟨⟨48, [.vec]⟩, true⟩] .leaf .leaf)
          (.node 1850 [⟨⟨48, []⟩, false⟩, ⟨⟨48, [.vec]⟩, true⟩] .leaf .leaf)))
        (.node 1856 [⟨⟨64, [.mat, .vec]⟩, false⟩, ⟨⟨64, [.mat, .vec]⟩, true⟩]
         (.node 1854 [⟨⟨48, [.vec]⟩, true⟩]
          (.node 1853 [⟨⟨48, [.vec]⟩, false⟩, ⟨⟨48, []⟩, true⟩]
           (.node 1852 [⟨⟨48, [.vec]⟩, false⟩, ⟨⟨12, []⟩, false⟩, ⟨⟨16, [.vec]⟩, true⟩] .leaf .leaf)
           .leaf)
          (.node 1855 [⟨⟨64, [.mat, .vec]⟩, false⟩, ⟨⟨64, [.mat, .vec]⟩, true⟩] .leaf .leaf))
         (.node 1858 [⟨⟨64, [.mat, .vec]⟩, true⟩]
          (.node 1857 [⟨⟨64, [.mat, .vec]⟩, true⟩] .leaf .leaf)
          (.node 1859 [⟨⟨64, [.mat, .vec]⟩, true⟩] .leaf .leaf)))))
      (.node 1878 [⟨⟨64, [.mat, .vec]⟩, true⟩]
       (.node 1869 [⟨⟨64, [.mat, .vec]⟩, false⟩, ⟨⟨16, [.vec]⟩, true⟩]
        (.node 1865 [⟨⟨64, [.mat, .vec]⟩, false⟩, ⟨⟨16, [.vec]⟩, false⟩, ⟨⟨16, [.vec]⟩, true⟩]
         (.node 1863 [⟨⟨64, [.mat, .vec]⟩, false⟩, ⟨⟨64, [.mat, .vec]⟩, false⟩, ⟨⟨64, [.mat, .vec]⟩, true⟩]
          (.node 1862 [⟨⟨36, []⟩, false⟩, ⟨⟨64, [.mat, .vec]⟩, true⟩]
           (.node 1861 [⟨⟨64, [.mat, .vec]⟩, false⟩, ⟨⟨36, []⟩, true⟩] .leaf .leaf)
           .leaf)
          (.node 1864 [⟨⟨64, [.mat, .vec]⟩, false⟩, ⟨⟨64, [.mat, .vec]⟩, true⟩] .leaf .leaf))
         (.node 1867 [⟨⟨64, [.mat, .vec]⟩, false⟩]
          (.node 1866 [⟨⟨64, [.mat, .vec]⟩, false⟩, ⟨⟨12, []⟩, false⟩, ⟨⟨12, []⟩, true⟩] .leaf .leaf)
          (.node 1868 [⟨⟨64, [.mat, .vec]⟩, false⟩] .leaf .leaf)))
        (.node 1874 [⟨⟨64, [.mat, .vec]⟩, false⟩]
         (.node 1872 [⟨⟨64, [.mat, .vec]⟩, true⟩]
          (.node 1871 [⟨⟨64, [.mat, .vec]⟩, true⟩]
           (.node 1870 [⟨⟨64, [.mat, .vec]⟩, false⟩, ⟨⟨64, [.mat, .vec]⟩, true⟩] .leaf .leaf)
           .leaf)
          (.node 1873 [⟨⟨64, [.mat, .vec]⟩, true⟩] .leaf .leaf))
         (.node 1876 [⟨⟨64, [.mat, .vec]⟩, false⟩, ⟨⟨64, [.mat, .vec]⟩, true⟩]
          (.node 1875 [⟨⟨64, [.mat, .vec]⟩, false⟩, ⟨⟨64, [.mat, .vec]⟩, true⟩] .leaf .leaf)
          (.node 1877 [⟨⟨64, [.mat, .vec]⟩, false⟩, ⟨⟨64, [.mat, .vec]⟩, true⟩] .leaf .leaf))))
       (.node 1887 [⟨⟨32, []⟩, false⟩, ⟨⟨16, [.vec]⟩, false⟩, ⟨⟨8, []⟩, true⟩]
        (.node 1883 [⟨⟨32, []⟩, false⟩, ⟨⟨32, []⟩, true⟩]
         (.node 1881 [⟨⟨64, []⟩, false⟩, ⟨⟨64, [.mat, .vec]⟩, true⟩]
          (.node 1880 [⟨⟨16, [.vec]⟩, false⟩, ⟨⟨64, [.mat, .vec]⟩, false⟩, ⟨⟨16, [.vec]⟩, false⟩]
           (.node 1879 [⟨⟨64, [.mat, .vec]⟩, true⟩] .leaf .leaf)
           .leaf)
          (.node 1882 [⟨⟨64, [.mat, .vec]⟩, true⟩] .leaf .leaf))
         (.node 1885 [⟨⟨32, []⟩, false⟩, ⟨⟨32, []⟩, true⟩]
          (.node 1884 [⟨⟨32, []⟩, true⟩] .leaf .leaf)
          (.node 1886 [⟨⟨32, []⟩, false⟩, ⟨⟨32, [.vec]⟩, false⟩, ⟨⟨16, [.vec]⟩, true⟩] .leaf .leaf)))
        (.node 1892 [⟨⟨48, []⟩, false⟩, ⟨⟨48, []⟩, true⟩]
         (.node 1890 [⟨⟨48, []⟩, false⟩, ⟨⟨48, []⟩, true⟩]
          (.node 1889 [⟨⟨32, []⟩, true⟩]
           (.node 1888 [⟨⟨32, []⟩, false⟩, ⟨⟨32, [.vec]⟩, true⟩] .leaf .leaf)
           .leaf)
          (.node 1891 [⟨⟨48, []⟩, true⟩] .leaf .leaf))
         (.node 1894 [⟨⟨48, []⟩, false⟩, ⟨⟨16, [.vec]⟩, false⟩, ⟨⟨12, []⟩, true⟩]
          (.node 1893 [⟨⟨48, []⟩, false⟩, ⟨⟨48, [.vec]⟩, false⟩, ⟨⟨36, []⟩, true⟩] .leaf .leaf)
          (.node 1895 [⟨⟨48, []⟩, false⟩, ⟨⟨48, [.vec]⟩, true⟩] .leaf .leaf)))))))
    (.node 1969 [⟨⟨8, []⟩, false⟩, ⟨⟨8, []⟩, true⟩]
     (.node 1933 [⟨⟨16, [.vec]⟩, false⟩, ⟨⟨16, [.vec]⟩, false⟩, ⟨⟨16, [.vec]⟩, true⟩]
      (.node 1915 [⟨⟨16, [.vec]⟩, true⟩]
       (.node 1906 [⟨⟨16, [.vec]⟩, true⟩]
        (.node 1901 [⟨⟨12, []⟩, false⟩, ⟨⟨64, [.mat, .vec]⟩, false⟩, ⟨⟨16, [.vec]⟩, false⟩, ⟨⟨12, []⟩, true⟩]
         (.node 1899 [⟨⟨8, []⟩, false⟩]
          (.node 1898 [⟨⟨12, []⟩, false⟩]
           (.node 1897 [⟨⟨16, [.vec]⟩, false⟩] .leaf .leaf)
           .leaf)
          (.node 1900 [⟨⟨16, [.vec]⟩, true⟩] .leaf .leaf))
         (.node 1904 [⟨⟨12, []⟩, false⟩, ⟨⟨64, [.mat, .vec]⟩, false⟩]
          (.node 1903 [⟨⟨12, []⟩, false⟩, ⟨⟨64, [.mat, .vec]⟩, false⟩, ⟨⟨16, [.vec]⟩, false⟩, ⟨⟨12, []⟩, true⟩]
           (.node 1902 [⟨⟨12, []⟩, false⟩, ⟨⟨64, [.mat, .vec]⟩, false⟩, ⟨⟨16, [.vec]⟩, false⟩, ⟨⟨12, []⟩, true⟩] .leaf .leaf)
           .leaf)
          (.node 1905 [⟨⟨8, []⟩, false⟩, ⟨⟨8, []⟩, false⟩, ⟨⟨16, [.vec]⟩, false⟩, ⟨⟨64, [.mat, .vec]⟩, true⟩] .leaf .leaf)))
        (.node 1911 [⟨⟨16, [.vec]⟩, false⟩, ⟨⟨16, [.vec]⟩, true⟩]
         (.node 1909 [⟨⟨16, [.vec]⟩, true⟩]
          (.node 1908 [⟨⟨16, [.vec]⟩, true⟩]
           (.node 1907 [⟨⟨16, [.vec]⟩, true⟩] .leaf .leaf)
           .leaf)
          (.node 1910 [⟨⟨16, [.vec]⟩, true⟩, ⟨⟨12, []⟩, false⟩] .leaf .leaf))
         (.node 1913 [⟨⟨16, [.vec]⟩, false⟩]
          (.node 1912 [⟨⟨12, []⟩, false⟩, ⟨⟨12, []⟩, false⟩, ⟨⟨16, [.vec]⟩, true⟩] .leaf .leaf)
          (.node 1914 [⟨⟨16, [.vec]⟩, false⟩, ⟨⟨16, [.vec]⟩, true⟩] .leaf .leaf))))
       (.node 1924 [⟨⟨16, [.vec]⟩, false⟩]
        (.node 1920 [⟨⟨16, [.vec]⟩, false⟩, ⟨⟨16, [.vec]⟩, false⟩, ⟨⟨16, [.vec]⟩, true⟩]
         (.node 1918 [⟨⟨16, [.vec]⟩, false⟩, ⟨⟨16, [.vec]⟩, true⟩]
          (.node 1917 [⟨⟨16, [.vec]⟩, false⟩, ⟨⟨16, [.vec]⟩, true⟩]
           (.node 1916 [⟨⟨16, [.vec]⟩, false⟩, ⟨⟨16, [.vec]⟩, false⟩] .leaf .leaf)
           .leaf)
          (.node 1919 [⟨⟨16, [.vec]⟩, false⟩, ⟨⟨16, [.vec]⟩, false⟩, ⟨⟨16, [.vec]⟩, true⟩] .leaf .leaf))
         (.node 1922 [⟨⟨16, [.vec]⟩, false⟩, ⟨⟨12, []⟩, true⟩]
          (.node 1921 [⟨⟨16, [.vec]⟩, false⟩] .leaf .leaf)
          (.node 1923 [⟨⟨16, [.vec]⟩, false⟩, ⟨⟨12, []⟩, true⟩] .leaf .leaf)))
        (.node 1929 [⟨⟨16, [.vec]⟩, false⟩, ⟨⟨64, [.mat, .vec]⟩, true⟩]
         (.node 1927 [⟨⟨16, [.vec]⟩, false⟩, ⟨⟨16, [.vec]⟩, false⟩, ⟨⟨16, [.vec]⟩, true⟩]
          (.node 1926 [⟨⟨16, [.vec]⟩, false⟩, ⟨⟨12, []⟩, true⟩]
           (.node 1925 [⟨⟨16, [.vec]⟩, false⟩] .leaf .leaf)
           .leaf)
          (.node 1928 [⟨⟨16, [.vec]⟩, false⟩, ⟨⟨64, [.mat, .vec]⟩, true⟩] .leaf .leaf))
         (.node 1931 [⟨⟨16, [.vec]⟩, false⟩, ⟨⟨36, []⟩, true⟩]
          (.node 1930 [⟨⟨16, [.vec]⟩, false⟩, ⟨⟨36, []⟩, true⟩] .leaf .leaf)
          (.node 1932 [⟨⟨16, [.vec]⟩, false⟩, ⟨⟨16, [.vec]⟩, false⟩, ⟨⟨16, [.vec]⟩, true⟩] .leaf .leaf)))))
      (.node 1951 [⟨⟨16, [.vec]⟩, false⟩, ⟨⟨16, [.vec]⟩, false⟩]
       (.node 1942 [⟨⟨64, [.mat, .vec]⟩, true⟩, ⟨⟨16, [.vec]⟩, false⟩, ⟨⟨12, []⟩, true⟩]
        (.node 1938 [⟨⟨12, []⟩, false⟩, ⟨⟨12, []⟩, false⟩, ⟨⟨16, [.vec]⟩, true⟩]
         (.node 1936 [⟨⟨16, [.vec]⟩, false⟩, ⟨⟨16, [.vec]⟩, false⟩, ⟨⟨16, [.vec]⟩, true⟩]
          (.node 1935 [⟨⟨16, [.vec]⟩, false⟩, ⟨⟨16, [.vec]⟩, false⟩, ⟨⟨16, [.vec]⟩, true⟩]
           (.node 1934 [⟨⟨16, [.vec]⟩, false⟩, ⟨⟨16, [.vec]⟩, false⟩, ⟨⟨16, [.vec]⟩, true⟩] .leaf .leaf)
           .leaf)
          (.node 1937 [⟨⟨12, []⟩, false⟩, ⟨⟨16, [.vec]⟩, false⟩, ⟨⟨64, [.mat, .vec]⟩, true⟩] .leaf .leaf))
         (.node 1940 [⟨⟨16, [.vec]⟩, false⟩, ⟨⟨12, []⟩, false⟩, ⟨⟨12, []⟩, true⟩]
          (.node 1939 [⟨⟨12, []⟩, false⟩, ⟨⟨12, []⟩, false⟩, ⟨⟨12, []⟩, false⟩, ⟨⟨16, [.vec]⟩, true⟩] .leaf .leaf)
          (.node 1941 [⟨⟨64, [.mat, .vec]⟩, false⟩, ⟨⟨16, [.vec]⟩, false⟩, ⟨⟨64, [.mat, .vec]⟩, true⟩] .leaf .leaf)))
        (.node 1947 [⟨⟨12, []⟩, false⟩, ⟨⟨12, []⟩, false⟩, ⟨⟨12, []⟩, true⟩]
         (.node 1945 [⟨⟨12, []⟩, false⟩, ⟨⟨12, []⟩, false⟩, ⟨⟨12, []⟩, false⟩, ⟨⟨12, []⟩, false⟩, ⟨⟨12, []⟩, false⟩, ⟨⟨4, []⟩, true⟩]
          (.node 1944 [⟨⟨16, []⟩, false⟩, ⟨⟨16, [.vec]⟩, true⟩]
           (.node 1943 [⟨⟨64, [.mat, .vec]⟩, true⟩, ⟨⟨16, [.vec]⟩, false⟩, ⟨⟨12, []⟩, false⟩] .leaf .leaf)
           .leaf)
          (.node 1946 [⟨⟨12, []⟩, false⟩, ⟨⟨12, []⟩, true⟩, ⟨⟨16, [.vec]⟩, false⟩, ⟨⟨4, []⟩, true⟩, ⟨⟨4, []⟩, true⟩] .leaf .leaf))
         (.node 1949 [⟨⟨16, [.vec]⟩, false⟩, ⟨⟨64, [.mat, .vec]⟩, false⟩, ⟨⟨16, [.vec]⟩, true⟩]
          (.node 1948 [⟨⟨16, [.vec]⟩, false⟩] .leaf .leaf)
          (.node 1950 [⟨⟨16, [.vec]⟩, false⟩, ⟨⟨16, [.vec]⟩, false⟩, ⟨⟨16, [.vec]⟩, true⟩] .leaf .leaf))))
       (.node 1960 [⟨⟨8, []⟩, false⟩, ⟨⟨8, []⟩, false⟩]
        (.node 1956 [⟨⟨8, []⟩, false⟩, ⟨⟨8, []⟩, false⟩]
         (.node 1954 [⟨⟨8, []⟩, true⟩]
          (.node 1953 [⟨⟨8, []⟩, false⟩, ⟨⟨8, []⟩, true⟩]
           (.node 1952 [⟨⟨16, [.vec]⟩, false⟩, ⟨⟨12, []⟩, false⟩] .leaf .leaf)
           .leaf)
          (.node 1955 [⟨⟨8, []⟩, false⟩] .leaf .leaf))
         (.node 1958 [⟨⟨8, []⟩, true⟩]
          (.node 1957 [⟨⟨8, []⟩, false⟩, ⟨⟨8, []⟩, true⟩] .leaf .leaf)
          (.node 1959 [⟨⟨8, []⟩, true⟩] .leaf .leaf)))
        (.node 1965 [⟨⟨8, []⟩, false⟩, ⟨⟨8, []⟩, true⟩]
         (.node 1963 [⟨⟨8, []⟩, false⟩]
          (.node 1962 [⟨⟨8, []⟩, false⟩]
           (.node 1961 [⟨⟨8, []⟩, false⟩, ⟨⟨8, []⟩, false⟩] .leaf .leaf)
           .leaf)
          (.node 1964 [⟨⟨8, []⟩, false⟩, ⟨⟨8, []⟩, false⟩, ⟨⟨8, []⟩, true⟩] .leaf .leaf))
         (.node 1967 [⟨⟨8, []⟩, false⟩, ⟨⟨8, []⟩, true⟩]
          (.node 1966 [⟨⟨8, []⟩, false⟩, ⟨⟨8, []⟩, false⟩, ⟨⟨8, []⟩, true⟩] .leaf .leaf)
          (.node 1968 [⟨⟨8, []⟩, false⟩, ⟨⟨8, []⟩, false⟩, ⟨⟨8, []⟩, true⟩] .leaf .leaf))))))
     (.node 2006 [⟨⟨8, []⟩, false⟩, ⟨⟨8, []⟩, false⟩, ⟨⟨8, []⟩, true⟩]
      (.node 1988 [⟨⟨8, []⟩, false⟩, ⟨⟨8, []⟩, true⟩]
       (.node 1979 [⟨⟨8, []⟩, false⟩, ⟨⟨8, []⟩, false⟩, ⟨⟨8, []⟩, true⟩]
        (.node 1974 [⟨⟨8, []⟩, false⟩, ⟨⟨8, []⟩, false⟩, ⟨⟨8, []⟩, true⟩]
         (.node 1972 [⟨⟨8, []⟩, false⟩, ⟨⟨8, []⟩, true⟩]
          (.node 1971 [⟨⟨8, []⟩, false⟩, ⟨⟨8, []⟩, false⟩, ⟨⟨8, []⟩, true⟩]
           (.node 1970 [⟨⟨8, []⟩, false⟩, ⟨⟨8, []⟩, true⟩] .leaf .leaf)
           .leaf)
          (.node 1973 [⟨⟨8, []⟩, false⟩, ⟨⟨8, []⟩, false⟩, ⟨⟨8, []⟩, true⟩] .leaf .leaf))
         (.node 1977 [⟨⟨8, []⟩, false⟩, ⟨⟨8, []⟩, false⟩, ⟨⟨8, []⟩, true⟩]
          (.node 1976 [⟨⟨8, []⟩, false⟩, ⟨⟨8, []⟩, true⟩]
           (.node 1975 [⟨⟨8, []⟩, false⟩, ⟨⟨8, []⟩, false⟩, ⟨⟨8, []⟩, true⟩] .leaf .leaf)
           .leaf)
          (.node 1978 [⟨⟨8, []⟩, false⟩, ⟨⟨8, []⟩, false⟩, ⟨⟨8, []⟩, true⟩] .leaf .leaf)))
        (.node 1984 [⟨⟨8, []⟩, false⟩, ⟨⟨8, []⟩, false⟩, ⟨⟨8, []⟩, true⟩]
         (.node 1982 [⟨⟨8, []⟩, false⟩, ⟨⟨8, []⟩, true⟩]
          (.node 1981 [⟨⟨8, []⟩, false⟩, ⟨⟨8, []⟩, false⟩, ⟨⟨8, []⟩, true⟩]
           (.node 1980 [⟨⟨8, []⟩, false⟩, ⟨⟨8, []⟩, false⟩, ⟨⟨8, []⟩, true⟩] .leaf .leaf)
           .leaf)
          (.node 1983 [⟨⟨8, []⟩, false⟩, ⟨⟨8, []⟩, false⟩, ⟨⟨8, []⟩, true⟩] .leaf .leaf))
         (.node 1986 [⟨⟨8, []⟩, true⟩]
          (.node 1985 [⟨⟨8, []⟩, false⟩, ⟨⟨8, []⟩, true⟩] .leaf .leaf)
          (.node 1987 [⟨⟨8, []⟩, true⟩] .leaf .leaf))))
       (.node 1997 [⟨⟨8, []⟩, false⟩, ⟨⟨8, []⟩, true⟩]
        (.node 1993 [⟨⟨8, []⟩, false⟩, ⟨⟨8, []⟩, false⟩, ⟨⟨8, []⟩, true⟩]
         (.node 1991 [⟨⟨8, []⟩, false⟩, ⟨⟨8, []⟩, false⟩]
          (.node 1990 [⟨⟨8, []⟩, false⟩, ⟨⟨8, []⟩, false⟩, ⟨⟨8, []⟩, true⟩]
           (.node 1989 [⟨⟨8, []⟩, false⟩, ⟨⟨8, []⟩, true⟩] .leaf .leaf)
           .leaf)
          (.node 1992 [⟨⟨8, []⟩, false⟩, ⟨⟨8, []⟩, false⟩] .leaf .leaf))
         (.node 1995 [⟨⟨8, []⟩, true⟩]
          (.node 1994 [⟨⟨8, []⟩, false⟩, ⟨⟨8, []⟩, false⟩, ⟨⟨8, []⟩, true⟩] .leaf .leaf)
          (.node 1996 [⟨⟨8, []⟩, false⟩, ⟨⟨8, []⟩, true⟩] .leaf .leaf)))
        (.node 2002 [⟨⟨8, []⟩, false⟩, ⟨⟨8, []⟩, true⟩]
         (.node 2000 [⟨⟨8, []⟩, false⟩, ⟨⟨8, []⟩, false⟩, ⟨⟨8, []⟩, true⟩]
          (.node 1999 [⟨⟨8, []⟩, false⟩, ⟨⟨8, []⟩, true⟩]
           (.node 1998 [⟨⟨8, []⟩, false⟩, ⟨⟨8, []⟩, true⟩] .leaf .leaf)
           .leaf)
          (.node 2001 [⟨⟨8, []⟩, false⟩, ⟨⟨8, []⟩, true⟩] .leaf .leaf))
         (.node 2004 [⟨⟨8, []⟩, false⟩, ⟨⟨8, []⟩, false⟩, ⟨⟨8, []⟩, true⟩]
          (.node 2003 [⟨⟨8, []⟩, false⟩, ⟨⟨8, []⟩, true⟩] .leaf .leaf)
          (.node 2005 [⟨⟨8, []⟩, false⟩, ⟨⟨8, []⟩, false⟩, ⟨⟨8, []⟩, true⟩] .leaf .leaf)))))
      (.node 2024 [⟨⟨12, []⟩, false⟩, ⟨⟨12, []⟩, false⟩, ⟨⟨12, []⟩, true⟩]
       (.node 2015 [⟨⟨12, []⟩, false⟩, ⟨⟨12, []⟩, false⟩]
        (.node 2011 [⟨⟨16, [.vec]⟩, false⟩, ⟨⟨12, []⟩, true⟩]
         (.node 2009 [⟨⟨8, []⟩, false⟩, ⟨⟨8, []⟩, false⟩, ⟨⟨8, []⟩, true⟩]
          (.node 2008 [⟨⟨8, []⟩, false⟩, ⟨⟨8, []⟩, true⟩]
           (.node 2007 [⟨⟨8, []⟩, false⟩, ⟨⟨8, []⟩, true⟩] .leaf .leaf)
           .leaf)
          (.node 2010 [⟨⟨8, []⟩, false⟩, ⟨⟨8, []⟩, false⟩, ⟨⟨8, []⟩, true⟩] .leaf .leaf))
         (.node 2013 [⟨⟨12, []⟩, true⟩]
          (.node 2012 [⟨⟨12, []⟩, false⟩, ⟨⟨12, []⟩, true⟩] .leaf .leaf)
          (.node 2014 [⟨⟨12, []⟩, true⟩] .leaf .leaf)))
        (.node 2020 [⟨⟨12, []⟩, true⟩]
         (.node 2018 [⟨⟨12, []⟩, false⟩]
          (.node 2017 [⟨⟨12, []⟩, false⟩, ⟨⟨12, []⟩, false⟩, ⟨⟨12, []⟩, true⟩]
           (.node 2016 [⟨⟨12, []⟩, false⟩, ⟨⟨12, []⟩, false⟩, ⟨⟨12, []⟩, true⟩] .leaf .leaf)
           .leaf)
          (.node 2019 [⟨⟨12, []⟩, false⟩, ⟨⟨12, []⟩, true⟩] .leaf .leaf))
         (.node 2022 [⟨⟨12, []⟩, false⟩]
          (.node 2021 [⟨⟨12, []⟩, false⟩] .leaf .leaf)
          (.node 2023 [⟨⟨12, []⟩, false⟩] .leaf .leaf))))
       (.node 2033 [⟨⟨12, []⟩, false⟩, ⟨⟨12, []⟩, false⟩, ⟨⟨12, []⟩, true⟩]
        (.node 2029 [⟨⟨12, []⟩, false⟩, ⟨⟨12, []⟩, true⟩]
         (.node 2027 [⟨⟨12, []⟩, false⟩, ⟨⟨12, []⟩, true⟩]
          (.node 2026 [⟨⟨12, []⟩, false⟩, ⟨⟨12, []⟩, false⟩, ⟨⟨12, []⟩, true⟩]
           (.node 2025 [⟨⟨12, []⟩, false⟩, ⟨⟨12, []⟩, true⟩] .leaf .leaf)
           .leaf)
          (.node 2028 [⟨⟨12, []⟩, false⟩, ⟨⟨12, []⟩, false⟩, ⟨⟨12, []⟩, true⟩] .leaf .leaf))
         (.node 2031 [⟨⟨12, []⟩, false⟩, ⟨⟨12, []⟩, false⟩, ⟨⟨12, []⟩, true⟩]
          (.node 2030 [⟨⟨12, []⟩, false⟩, ⟨⟨12, []⟩, true⟩] .leaf .leaf)
          (.node 2032 [⟨⟨12, []⟩, false⟩, ⟨⟨12, []⟩, true⟩] .leaf .leaf)))
        (.node 2038 [⟨⟨12, []⟩, false⟩, ⟨⟨12, []⟩, false⟩, ⟨⟨12, []⟩, true⟩]
         (.node 2036 [⟨⟨12, []⟩, false⟩, ⟨⟨12, []⟩, true⟩]
          (.node 2035 [⟨⟨12, []⟩, false⟩, ⟨⟨12, []⟩, false⟩, ⟨⟨12, []⟩, true⟩]
           (.node 2034 [⟨⟨12, []⟩, false⟩, ⟨⟨12, []⟩, false⟩, ⟨⟨12, []⟩, true⟩] .leaf .leaf)
           .leaf)
          (.node 2037 [⟨⟨12, []⟩, false⟩, ⟨⟨12, []⟩, false⟩, ⟨⟨12, []⟩, true⟩] .leaf .leaf))
         (.node 2040 [⟨⟨12, []⟩, false⟩, ⟨⟨12, []⟩, false⟩, ⟨⟨12, []⟩, true⟩]
          (.node 2039 [⟨⟨12, []⟩, false⟩, ⟨⟨12, []⟩, false⟩, ⟨⟨12, []⟩, true⟩] .leaf .leaf)
          (.node 2041 [⟨⟨12, []⟩, false⟩, ⟨⟨12, []⟩, false⟩, ⟨⟨12, []⟩, true⟩] .leaf .leaf))))))))
   (.node 2188 [⟨⟨24, []⟩, false⟩, ⟨⟨64, [.mat, .vec]⟩, true⟩]
    (.node 2115 [⟨⟨16, [.vec]⟩, false⟩, ⟨⟨16, [.vec]⟩, false⟩, ⟨⟨16, [.vec]⟩, true⟩]
     (.node 2079 [⟨⟨12, []⟩, false⟩]
      (.node 2061 [⟨⟨12, []⟩, false⟩, ⟨⟨12, []⟩, false⟩, ⟨⟨12, []⟩, true⟩]
       (.node 2052 [⟨⟨12, []⟩, false⟩, ⟨⟨12, []⟩, false⟩, ⟨⟨12, []⟩, true⟩]
        (.node 2047 [⟨⟨12, []⟩, false⟩, ⟨⟨12, []⟩, false⟩]
         (.node 2045 [⟨⟨12, []⟩, true⟩]
          (.node 2044 [⟨⟨12, []⟩, false⟩, ⟨⟨12, []⟩, false⟩, ⟨⟨12, []⟩, true⟩]
           (.node 2043 [⟨⟨12, []⟩, false⟩, ⟨⟨12, []⟩, false⟩, ⟨⟨12, []⟩, true⟩] .leaf .leaf)
           .leaf)
          (.node 2046 [⟨⟨12, []⟩, false⟩, ⟨⟨12, []⟩, true⟩] .leaf .leaf))
         (.node 2050 [⟨⟨36, []⟩, false⟩, ⟨⟨12, []⟩, false⟩, ⟨⟨12, []⟩, true⟩]
          (.node 2049 [⟨⟨64, [.mat, .vec]⟩, false⟩, ⟨⟨12, []⟩, false⟩, ⟨⟨12, []⟩, true⟩]
           (.node 2048 [⟨⟨12, []⟩, true⟩, ⟨⟨12, []⟩, false⟩] .leaf .leaf)
           .leaf)
          (.node 2051 [⟨⟨12, []⟩, false⟩, ⟨⟨12, []⟩, false⟩, ⟨⟨12, []⟩, true⟩] .leaf .leaf)))
        (.node 2057 [⟨⟨12, []⟩, true⟩]
         (.node 2055 [⟨⟨12, []⟩, false⟩, ⟨⟨12, []⟩, false⟩, ⟨⟨12, []⟩, true⟩]
          (.node 2054 [⟨⟨12, []⟩, false⟩, ⟨⟨12, []⟩, false⟩]
           (.node 2053 [⟨⟨12, []⟩, false⟩, ⟨⟨12, []⟩, false⟩] .leaf .leaf)
           .leaf)
          (.node 2056 [⟨⟨12, []⟩, false⟩, ⟨⟨12, []⟩, false⟩, ⟨⟨12, []⟩, true⟩] .leaf .leaf))
         (.node 2059 [⟨⟨12, []⟩, false⟩, ⟨⟨12, []⟩, false⟩, ⟨⟨12, []⟩, true⟩]
          (.node 2058 [⟨⟨12, []⟩, false⟩, ⟨⟨12, []⟩, true⟩] .leaf .leaf)
          (.node 2060 [⟨⟨12, []⟩, false⟩, ⟨⟨12, []⟩, false⟩, ⟨⟨12, []⟩, true⟩] .leaf .leaf))))
       (.node 2070 [⟨⟨12, []⟩, false⟩]
        (.node 2066 [⟨⟨12, []⟩, false⟩, ⟨⟨12, []⟩, true⟩]
         (.node 2064 [⟨⟨12, []⟩, false⟩, ⟨⟨12, []⟩, false⟩, ⟨⟨12, []⟩, true⟩]
          (.node 2063 [⟨⟨12, []⟩, false⟩, ⟨⟨12, []⟩, false⟩, ⟨⟨12, []⟩, false⟩, ⟨⟨12, []⟩, true⟩]
           (.node 2062 [⟨⟨12, []⟩, false⟩, ⟨⟨12, []⟩, true⟩] .leaf .leaf)
           .leaf)
          (.node 2065 [⟨⟨12, []⟩, false⟩, ⟨⟨12, []⟩, false⟩, ⟨⟨12, []⟩, true⟩] .leaf .leaf))
         (.node 2068 [⟨⟨12, []⟩, true⟩]
          (.node 2067 [⟨⟨12, []⟩, false⟩, ⟨⟨12, []⟩, false⟩, ⟨⟨12, []⟩, true⟩] .leaf .leaf)
          (.node 2069 [⟨⟨12, []⟩, true⟩] .leaf .leaf)))
        (.node 2075 [⟨⟨12, []⟩, false⟩]
         (.node 2073 [⟨⟨12, []⟩, false⟩, ⟨⟨12, []⟩, false⟩]
          (.node 2072 [⟨⟨12, []⟩, false⟩]
           (.node 2071 [⟨⟨12, []⟩, false⟩] .leaf .leaf)
           .leaf)
          (.node 2074 [⟨⟨12, []⟩, false⟩, ⟨⟨12, []⟩, false⟩] .leaf .leaf))
         (.node 2077 [⟨⟨12, []⟩, false⟩]
          (.node 2076 [⟨⟨12, []⟩, false⟩] .leaf .leaf)
          (.node 2078 [⟨⟨12, []⟩, false⟩] .leaf .leaf)))))
      (.node 2097 [⟨⟨16, [.vec]⟩, false⟩, ⟨⟨16, [.vec]⟩, true⟩]
       (.node 2088 [⟨⟨12, []⟩, false⟩, ⟨⟨12, []⟩, true⟩]
        (.node 2084 [⟨⟨12, []⟩, false⟩, ⟨⟨12, []⟩, true⟩]
         (.node 2082 [⟨⟨12, []⟩, false⟩, ⟨⟨12, []⟩, true⟩]
          (.node 2081 [⟨⟨12, []⟩, false⟩, ⟨⟨12, []⟩, true⟩]
           (.node 2080 [⟨⟨12, []⟩, false⟩, ⟨⟨12, []⟩, true⟩] .leaf .leaf)
           .leaf)
          (.node 2083 [⟨⟨12, []⟩, false⟩, ⟨⟨12, []⟩, true⟩] .leaf .leaf))
         (.node 2086 [⟨⟨12, []⟩, false⟩, ⟨⟨12, []⟩, true⟩]
          (.node 2085 [⟨⟨12, []⟩, false⟩, ⟨⟨12, []⟩, true⟩] .leaf .leaf)
          (.node 2087 [⟨⟨12, []⟩, false⟩] .leaf .leaf)))
        (.node 2093 [⟨⟨12, []⟩, false⟩, ⟨⟨16, [.vec]⟩, true⟩]
         (.node 2091 [⟨⟨12, []⟩, false⟩, ⟨⟨12, []⟩, false⟩, ⟨⟨12, []⟩, true⟩]
          (.node 2090 [⟨⟨12, []⟩, false⟩, ⟨⟨12, []⟩, false⟩, ⟨⟨12, []⟩, false⟩, ⟨⟨12, []⟩, true⟩]
           (.node 2089 [⟨⟨12, []⟩, false⟩, ⟨⟨12, []⟩, true⟩] .leaf .leaf)
           .leaf)
          (.node 2092 [⟨⟨12, []⟩, false⟩, ⟨⟨12, []⟩, false⟩, ⟨⟨12, []⟩, true⟩] .leaf .leaf))
         (.node 2095 [⟨⟨16, [.vec]⟩, true⟩]
          (.node 2094 [⟨⟨16, [.vec]⟩, true⟩] .leaf .leaf)
          (.node 2096 [⟨⟨16, [.vec]⟩, false⟩, ⟨⟨12, []⟩, true⟩] .leaf .leaf))))
       (.node 2106 [⟨⟨16, [.vec]⟩, false⟩, ⟨⟨16, [.vec]⟩, false⟩, ⟨⟨16, [.vec]⟩, true⟩]
        (.node 2102 [⟨⟨16, [.vec]⟩, true⟩]
         (.node 2100 [⟨⟨16, [.vec]⟩, false⟩]
          (.node 2099 [⟨⟨16, [.vec]⟩, false⟩, ⟨⟨16, [.vec]⟩, false⟩]
           (.node 2098 [⟨⟨16, [.vec]⟩, false⟩, ⟨⟨16, [.vec]⟩, true⟩] .leaf .leaf)
           .leaf)
          (.node 2101 [⟨⟨16, [.vec]⟩, false⟩, ⟨⟨16, [.vec]⟩, true⟩] .leaf .leaf))
         (.node 2104 [⟨⟨16, [.vec]⟩, false⟩]
          (.node 2103 [⟨⟨16, [.vec]⟩, false⟩] .leaf .leaf)
          (.node 2105 [⟨⟨16, [.vec]⟩, false⟩] .leaf .leaf)))
        (.node 2111 [⟨⟨16, [.vec]⟩, false⟩, ⟨⟨16, [.vec]⟩, true⟩]
         (.node 2109 [⟨⟨16, [.vec]⟩, false⟩, ⟨⟨16, [.vec]⟩, true⟩]
          (.node 2108 [⟨⟨16, [.vec]⟩, false⟩, ⟨⟨16, [.vec]⟩, false⟩, ⟨⟨16, [.vec]⟩, true⟩]
           (.node 2107 [⟨⟨16, [.vec]⟩, false⟩, ⟨⟨16, [.vec]⟩, true⟩] .leaf .leaf)
           .leaf)
          (.node 2110 [⟨⟨16, [.vec]⟩, false⟩, ⟨⟨16, [.vec]⟩, false⟩, ⟨⟨16, [.vec]⟩, true⟩] .leaf .leaf))
         (.node 2113 [⟨⟨16, [.vec]⟩, false⟩, ⟨⟨16, [.vec]⟩, false⟩, ⟨⟨16, [.vec]⟩, true⟩]
          (.node 2112 [⟨⟨16, [.vec]⟩, false⟩, ⟨⟨16, [.vec]⟩, true⟩] .leaf .leaf)
          (.node 2114 [⟨⟨16, [.vec]⟩, false⟩, ⟨⟨16, [.vec]⟩, true⟩] .leaf .leaf))))))
     (.node 2152 [⟨⟨16, [.vec]⟩, false⟩]
      (.node 2134 [⟨⟨16, [.vec]⟩, false⟩, ⟨⟨16, [.vec]⟩, false⟩, ⟨⟨16, [.vec]⟩, true⟩]
       (.node 2125 [⟨⟨16, [.vec]⟩, false⟩, ⟨⟨16, [.vec]⟩, false⟩, ⟨⟨16, [.vec]⟩, true⟩]
        (.node 2120 [⟨⟨16, [.vec]⟩, false⟩, ⟨⟨16, [.vec]⟩, false⟩, ⟨⟨16, [.vec]⟩, true⟩]
         (.node 2118 [⟨⟨16, [.vec]⟩, false⟩, ⟨⟨16, [.vec]⟩, true⟩]
          (.node 2117 [⟨⟨16, [.vec]⟩, false⟩, ⟨⟨16, [.vec]⟩, false⟩, ⟨⟨16, [.vec]⟩, true⟩]
           (.node 2116 [⟨⟨16, [.vec]⟩, false⟩, ⟨⟨16, [.vec]⟩, false⟩, ⟨⟨16, [.vec]⟩, true⟩] .leaf .leaf)
           .leaf)
          (.node 2119 [⟨⟨16, [.vec]⟩, false⟩, ⟨⟨16, [.vec]⟩, false⟩, ⟨⟨16, [.vec]⟩, true⟩] .leaf .leaf))
         (.node 2123 [⟨⟨16, [.vec]⟩, false⟩, ⟨⟨16, [.vec]⟩, false⟩, ⟨⟨16, [.vec]⟩, true⟩]
          (.node 2122 [⟨⟨16, [.vec]⟩, false⟩, ⟨⟨16, [.vec]⟩, false⟩, ⟨⟨16, [.vec]⟩, true⟩]
           (.node 2121 [⟨⟨16, [.vec]⟩, false⟩, ⟨⟨16, [.vec]⟩, false⟩, ⟨⟨16, [.vec]⟩, true⟩] .leaf .leaf)
           .leaf)
          (.node 2124 [⟨⟨16, [.vec]⟩, false⟩, ⟨⟨16, [.vec]⟩, true⟩] .leaf .leaf)))
        (.node 2130 [⟨⟨16, [.vec]⟩, false⟩, ⟨⟨16, [.vec]⟩, false⟩]
         (.node 2128 [⟨⟨16, [.vec]⟩, false⟩, ⟨⟨16, [.vec]⟩, true⟩]
          (.node 2127 [⟨⟨16, [.vec]⟩, true⟩]
           (.node 2126 [⟨⟨16, [.vec]⟩, false⟩, ⟨⟨16, [.vec]⟩, false⟩, ⟨⟨16, [.vec]⟩, true⟩] .leaf .leaf)
           .leaf)
          (.node 2129 [⟨⟨16, [.vec]⟩, false⟩, ⟨⟨16, [.vec]⟩, false⟩] .leaf .leaf))
         (.node 2132 [⟨⟨16, [.vec]⟩, false⟩, ⟨⟨16, [.vec]⟩, false⟩, ⟨⟨16, [.vec]⟩, true⟩]
          (.node 2131 [⟨⟨16, [.vec]⟩, false⟩, ⟨⟨16, [.vec]⟩, false⟩, ⟨⟨16, [.vec]⟩, true⟩] .leaf .leaf)
          (.node 2133 [⟨⟨16, [.vec]⟩, true⟩] .leaf .leaf))))
       (.node 2143 [⟨⟨16, [.vec]⟩, false⟩, ⟨⟨16, [.vec]⟩, false⟩, ⟨⟨16, [.vec]⟩, true⟩]
        (.node 2139 [⟨⟨16, [.vec]⟩, false⟩, ⟨⟨16, [.vec]⟩, false⟩, ⟨⟨16, [.vec]⟩, true⟩]
         (.node 2137 [⟨⟨16, [.vec]⟩, false⟩, ⟨⟨16, [.vec]⟩, true⟩]
          (.node 2136 [⟨⟨16, [.vec]⟩, false⟩, ⟨⟨16, [.vec]⟩, false⟩, ⟨⟨16, [.vec]⟩, true⟩]
           (.node 2135 [⟨⟨16, [.vec]⟩, false⟩, ⟨⟨16, [.vec]⟩, false⟩, ⟨⟨16, [.vec]⟩, true⟩] .leaf .leaf)
           .leaf)
          (.node 2138 [⟨⟨16, [.vec]⟩, false⟩, ⟨⟨16, [.vec]⟩, false⟩, ⟨⟨16, [.vec]⟩, false⟩, ⟨⟨16, [.vec]⟩, true⟩] .leaf .leaf))
         (.node 2141 [⟨⟨16, [.vec]⟩, true⟩]
          (.node 2140 [⟨⟨16, [.vec]⟩, false⟩, ⟨⟨16, [.vec]⟩, false⟩, ⟨⟨16, [.vec]⟩, true⟩] .leaf .leaf)
          (.node 2142 [⟨⟨16, [.vec]⟩, false⟩, ⟨⟨16, [.vec]⟩, true⟩] .leaf .leaf)))
        (.node 2148 [⟨⟨16, [.vec]⟩, false⟩]
         (.node 2146 [⟨⟨16, [.vec]⟩, false⟩]
          (.node 2145 [⟨⟨16, [.vec]⟩, true⟩]
           (.node 2144 [⟨⟨16, [.vec]⟩, true⟩] .leaf .leaf)
           .leaf)
          (.node 2147 [⟨⟨16, [.vec]⟩, false⟩] .leaf .leaf))
         (.node 2150 [⟨⟨16, [.vec]⟩, false⟩, ⟨⟨16, [.vec]⟩, false⟩]
          (.node 2149 [⟨⟨16, [.vec]⟩, false⟩, ⟨⟨16, [.vec]⟩, false⟩] .leaf .leaf)
          (.node 2151 [⟨⟨16, [.vec]⟩, false⟩] .leaf .leaf)))))
      (.node 2170 [⟨⟨24, []⟩, false⟩, ⟨⟨64, [.mat, .vec]⟩, true⟩]
       (.node 2161 [⟨⟨16, [.vec]⟩, false⟩, ⟨⟨16, [.vec]⟩, true⟩]
        (.node 2157 [⟨⟨16, [.vec]⟩, false⟩, ⟨⟨16, [.vec]⟩, true⟩]
         (.node 2155 [⟨⟨16, [.vec]⟩, false⟩]
          (.node 2154 [⟨⟨16, [.vec]⟩, false⟩]
           (.node 2153 [⟨⟨16, [.vec]⟩, false⟩] .leaf .leaf)
           .leaf)
          (.node 2156 [⟨⟨16, [.vec]⟩, false⟩, ⟨⟨16, [.vec]⟩, true⟩] .leaf .leaf))
         (.node 2159 [⟨⟨16, [.vec]⟩, false⟩, ⟨⟨16, [.vec]⟩, true⟩]
          (.node 2158 [⟨⟨16, [.vec]⟩, false⟩, ⟨⟨16, [.vec]⟩, true⟩] .leaf .leaf)
          (.node 2160 [⟨⟨16, [.vec]⟩, false⟩, ⟨⟨16, [.vec]⟩, true⟩] .leaf .leaf)))
        (.node 2166 [⟨⟨16, [.vec]⟩, false⟩, ⟨⟨16, [.vec]⟩, false⟩, ⟨⟨16, [.vec]⟩, true⟩]
         (.node 2164 [⟨⟨16, [.vec]⟩, false⟩, ⟨⟨16, [.vec]⟩, true⟩]
          (.node 2163 [⟨⟨16, [.vec]⟩, false⟩]
           (.node 2162 [⟨⟨16, [.vec]⟩, false⟩, ⟨⟨16, [.vec]⟩, true⟩] .leaf .leaf)
           .leaf)
          (.node 2165 [⟨⟨16, []⟩, false⟩, ⟨⟨16, [.vec]⟩, true⟩] .leaf .leaf))
         (.node 2168 [⟨⟨64, [.mat, .vec]⟩, true⟩]
          (.node 2167 [⟨⟨16, [.vec]⟩, false⟩, ⟨⟨16, [.vec]⟩, false⟩, ⟨⟨16, [.vec]⟩, true⟩] .leaf .leaf)
          (.node 2169 [⟨⟨24, []⟩, false⟩, ⟨⟨64, [.mat, .vec]⟩, true⟩] .leaf .leaf))))
       (.node 2179 [⟨⟨64, [.mat, .vec]⟩, true⟩]
        (.node 2175 [⟨⟨24, []⟩, false⟩, ⟨⟨64, [.mat, .vec]⟩, true⟩]
         (.node 2173 [⟨⟨64, [.mat, .vec]⟩, true⟩]
          (.node 2172 [⟨⟨64, [.mat, .vec]⟩, true⟩]
           (.node 2171 [⟨⟨24, []⟩, false⟩, ⟨⟨64, [.mat, .vec]⟩, true⟩] .leaf .leaf)
           .leaf)
          (.node 2174 [⟨⟨64, [.mat, .vec]⟩, true⟩] .leaf .leaf))
         (.node 2177 [⟨⟨24, []⟩, false⟩, ⟨⟨64, [.mat, .vec]⟩, true⟩]
          (.node 2176 [⟨⟨24, []⟩, false⟩, ⟨⟨64, [.mat, .vec]⟩, true⟩] .leaf .leaf)
          (.node 2178 [⟨⟨64, [.mat, .vec]⟩, true⟩] .leaf .leaf)))
        (.node 2184 [⟨⟨64, [.mat, .vec]⟩, true⟩]
         (.node 2182 [⟨⟨24, []⟩, false⟩, ⟨⟨64, [.mat, .vec]⟩, true⟩]
          (.node 2181 [⟨⟨24, []⟩, false⟩, ⟨⟨64, [.mat, .vec]⟩, true⟩]
           (.node 2180 [⟨⟨64, [.mat, .vec]⟩, true⟩] .leaf .leaf)
           .leaf)
          (.node 2183 [⟨⟨24, []⟩, false⟩, ⟨⟨64, [.mat, .vec]⟩, true⟩] .leaf .leaf))
         (.node 2186 [⟨⟨64, [.mat, .vec]⟩, true⟩]
          (.node 2185 [⟨⟨64, [.mat, .vec]⟩, true⟩] .leaf .leaf)
          (.node 2187 [⟨⟨24, []⟩, false⟩, ⟨⟨64, [.mat, .vec]⟩, true⟩] .leaf .leaf)))))))
    (.node 2261 [⟨⟨12, []⟩, false⟩, ⟨⟨12, []⟩, false⟩, ⟨⟨64, [.mat, .vec]⟩, true⟩]
     (.node 2225 [⟨⟨64, [.mat, .vec]⟩, false⟩, ⟨⟨4, []⟩, true⟩, ⟨⟨4, []⟩, true⟩]
      (.node 2207 [⟨⟨64, [.mat, .vec]⟩, true⟩]
       (.node 2198 [⟨⟨64, [.mat, .vec]⟩, false⟩, ⟨⟨4, []⟩, true⟩, ⟨⟨4, []⟩, true⟩]
        (.node 2193 [⟨⟨64, [.mat, .vec]⟩, true⟩]
         (.node 2191 [⟨⟨64, [.mat, .vec]⟩, true⟩]
          (.node 2190 [⟨⟨64, [.mat, .vec]⟩, true⟩]
           (.node 2189 [⟨⟨24, []⟩, false⟩, ⟨⟨64, [.mat, .vec]⟩, true⟩] .leaf .leaf)
           .leaf)
          (.node 2192 [⟨⟨64, [.mat, .vec]⟩, true⟩] .leaf .leaf))
         (.node 2196 [⟨⟨64, [.mat, .vec]⟩, false⟩, ⟨⟨24, []⟩, true⟩]
          (.node 2195 [⟨⟨64, [.mat, .vec]⟩, false⟩, ⟨⟨4, []⟩, true⟩, ⟨⟨4, []⟩, true⟩, ⟨⟨4, []⟩, true⟩, ⟨⟨4, []⟩, true⟩, ⟨⟨4, []⟩, true⟩, ⟨⟨4, []⟩, true⟩]
           (.node 2194 [⟨⟨64, [.mat, .vec]⟩, true⟩] .leaf .leaf)
           .leaf)
          (.node 2197 [⟨⟨64, [.mat, .vec]⟩, false⟩, ⟨⟨4, []⟩, true⟩, ⟨⟨4, []⟩, true⟩] .leaf .leaf)))
        (.node 2203 [⟨⟨64, [.mat, .vec]⟩, false⟩]
         (.node 2201 [⟨⟨64, [.mat, .vec]⟩, false⟩, ⟨⟨4, []⟩, true⟩]
          (.node 2200 [⟨⟨64, [.mat, .vec]⟩, false⟩, ⟨⟨4, []⟩, true⟩]
           (.node 2199 [⟨⟨64, [.mat, .vec]⟩, false⟩, ⟨⟨4, []⟩, true⟩, ⟨⟨4, []⟩, true⟩] .leaf .leaf)
           .leaf)
          (.node 2202 [⟨⟨64, [.mat, .vec]⟩, false⟩, ⟨⟨16, [.vec]⟩, true⟩] .leaf .leaf))
         (.node 2205 [⟨⟨64, [.mat, .vec]⟩, true⟩]
          (.node 2204 [⟨⟨64, [.mat, .vec]⟩, false⟩] .leaf .leaf)
          (.node 2206 [⟨⟨64, [.mat, .vec]⟩, true⟩] .leaf .leaf))))
       (.node 2216 [⟨⟨64, [.mat, .vec]⟩, false⟩]
        (.node 2212 [⟨⟨64, [.mat, .vec]⟩, false⟩, ⟨⟨4, []⟩, true⟩, ⟨⟨4, []⟩, true⟩]
         (.node 2210 [⟨⟨64, [.mat, .vec]⟩, false⟩, ⟨⟨4, []⟩, true⟩, ⟨⟨4, []⟩, true⟩]
          (.node 2209 [⟨⟨64, [.mat, .vec]⟩, false⟩, ⟨⟨24, []⟩, true⟩]
           (.node 2208 [⟨⟨64, [.mat, .vec]⟩, false⟩, ⟨⟨4, []⟩, true⟩, ⟨⟨4, []⟩, true⟩, ⟨⟨4, []⟩, true⟩, ⟨⟨4, []⟩, true⟩, ⟨⟨4, []⟩, true⟩, ⟨⟨4, []⟩, true⟩] .leaf .leaf)
           .leaf)
          (.node 2211 [⟨⟨64, [.mat, .vec]⟩, false⟩, ⟨⟨4, []⟩, true⟩, ⟨⟨4, []⟩, true⟩] .leaf .leaf))
         (.node 2214 [⟨⟨64, [.mat, .vec]⟩, false⟩, ⟨⟨4, []⟩, true⟩]
          (.node 2213 [⟨⟨64, [.mat, .vec]⟩, false⟩, ⟨⟨4, []⟩, true⟩] .leaf .leaf)
          (.node 2215 [⟨⟨64, [.mat, .vec]⟩, false⟩, ⟨⟨16, [.vec]⟩, true⟩] .leaf .leaf)))
        (.node 2221 [⟨⟨64, [.mat, .vec]⟩, false⟩, ⟨⟨4, []⟩, true⟩, ⟨⟨4, []⟩, true⟩, ⟨⟨4, []⟩, true⟩, ⟨⟨4, []⟩, true⟩, ⟨⟨4, []⟩, true⟩, ⟨⟨4, []⟩, true⟩]
         (.node 2219 [⟨⟨64, [.mat, .vec]⟩, true⟩]
          (.node 2218 [⟨⟨64, [.mat, .vec]⟩, true⟩]
           (.node 2217 [⟨⟨64, [.mat, .vec]⟩, false⟩] .leaf .leaf)
           .leaf)
          (.node 2220 [⟨⟨64, [.mat, .vec]⟩, true⟩] .leaf .leaf))
         (.node 2223 [⟨⟨64, [.mat, .vec]⟩, false⟩, ⟨⟨4, []⟩, true⟩, ⟨⟨4, []⟩, true⟩]
          (.node 2222 [⟨⟨64, [.mat, .vec]⟩, false⟩, ⟨⟨24, []⟩, true⟩] .leaf .leaf)
          (.node 2224 [⟨⟨64, [.mat, .vec]⟩, false⟩, ⟨⟨4, []⟩, true⟩, ⟨⟨4, []⟩, true⟩] .leaf .leaf)))))
      (.node 2243 [⟨⟨64, [.mat, .vec]⟩, false⟩]
       (.node 2234 [⟨⟨64, [.mat, .vec]⟩, false⟩, ⟨⟨4, []⟩, true⟩, ⟨⟨4, []⟩, true⟩, ⟨⟨4, []⟩, true⟩, ⟨⟨4, []⟩, true⟩, ⟨⟨4, []⟩, true⟩, ⟨⟨4, []⟩, true⟩]
        (.node 2230 [⟨⟨64, [.mat, .vec]⟩, false⟩]
         (.node 2228 [⟨⟨64, [.mat, .vec]⟩, false⟩, ⟨⟨16, [.vec]⟩, true⟩]
          (.node 2227 [⟨⟨64, [.mat, .vec]⟩, false⟩, ⟨⟨4, []⟩, true⟩]
           (.node 2226 [⟨⟨64, [.mat, .vec]⟩, false⟩, ⟨⟨4, []⟩, true⟩] .leaf .leaf)
           .leaf)
          (.node 2229 [⟨⟨64, [.mat, .vec]⟩, false⟩] .leaf .leaf))
         (.node 2232 [⟨⟨64, [.mat, .vec]⟩, true⟩]
          (.node 2231 [⟨⟨64, [.mat, .vec]⟩, true⟩] .leaf .leaf)
          (.node 2233 [⟨⟨64, [.mat, .vec]⟩, true⟩] .leaf .leaf)))
        (.node 2239 [⟨⟨64, [.mat, .vec]⟩, false⟩, ⟨⟨4, []⟩, true⟩]
         (.node 2237 [⟨⟨64, [.mat, .vec]⟩, false⟩, ⟨⟨4, []⟩, true⟩, ⟨⟨4, []⟩, true⟩]
          (.node 2236 [⟨⟨64, [.mat, .vec]⟩, false⟩, ⟨⟨4, []⟩, true⟩, ⟨⟨4, []⟩, true⟩]
           (.node 2235 [⟨⟨64, [.mat, .vec]⟩, false⟩, ⟨⟨24, []⟩, true⟩] .leaf .leaf)
           .leaf)
          (.node 2238 [⟨⟨64, [.mat, .vec]⟩, false⟩, ⟨⟨4, []⟩, true⟩, ⟨⟨4, []⟩, true⟩] .leaf .leaf))
         (.node 2241 [⟨⟨64, [.mat, .vec]⟩, false⟩, ⟨⟨16, [.vec]⟩, true⟩]
          (.node 2240 [⟨⟨64, [.mat, .vec]⟩, false⟩, ⟨⟨4, []⟩, true⟩] .leaf .leaf)
          (.node 2242 [⟨⟨64, [.mat, .vec]⟩, false⟩] .leaf .leaf))))
       (.node 2252 [⟨⟨12, []⟩, false⟩, ⟨⟨12, []⟩, false⟩, ⟨⟨64, [.mat, .vec]⟩, true⟩]
        (.node 2248 [⟨⟨12, []⟩, false⟩, ⟨⟨64, [.mat, .vec]⟩, false⟩, ⟨⟨16, [.vec]⟩, false⟩, ⟨⟨12, []⟩, true⟩]
         (.node 2246 [⟨⟨12, []⟩, false⟩, ⟨⟨64, [.mat, .vec]⟩, false⟩]
          (.node 2245 [⟨⟨12, []⟩, false⟩, ⟨⟨64, [.mat, .vec]⟩, false⟩, ⟨⟨16, [.vec]⟩, false⟩, ⟨⟨12, []⟩, true⟩]
           (.node 2244 [⟨⟨12, []⟩, false⟩, ⟨⟨64, [.mat, .vec]⟩, false⟩, ⟨⟨16, [.vec]⟩, false⟩, ⟨⟨12, []⟩, true⟩] .leaf .leaf)
           .leaf)
          (.node 2247 [⟨⟨12, []⟩, false⟩, ⟨⟨64, [.mat, .vec]⟩, false⟩, ⟨⟨16, [.vec]⟩, false⟩, ⟨⟨12, []⟩, true⟩] .leaf .leaf))
         (.node 2250 [⟨⟨12, []⟩, false⟩, ⟨⟨12, []⟩, false⟩, ⟨⟨12, []⟩, false⟩, ⟨⟨64, [.mat, .vec]⟩, true⟩]
          (.node 2249 [⟨⟨12, []⟩, false⟩, ⟨⟨64, [.mat, .vec]⟩, false⟩] .leaf .leaf)
          (.node 2251 [⟨⟨12, []⟩, false⟩, ⟨⟨12, []⟩, false⟩, ⟨⟨12, []⟩, false⟩, ⟨⟨64, [.mat, .vec]⟩, true⟩] .leaf .leaf)))
        (.node 2257 [⟨⟨12, []⟩, false⟩, ⟨⟨12, []⟩, false⟩, ⟨⟨12, []⟩, false⟩, ⟨⟨64, [.mat, .vec]⟩, true⟩]
         (.node 2255 [⟨⟨12, []⟩, false⟩, ⟨⟨12, []⟩, false⟩, ⟨⟨64, [.mat, .vec]⟩, true⟩]
          (.node 2254 [⟨⟨12, []⟩, false⟩, ⟨⟨12, []⟩, false⟩, ⟨⟨12, []⟩, false⟩, ⟨⟨64, [.mat, .vec]⟩, true⟩]
           (.node 2253 [⟨⟨12, []⟩, false⟩, ⟨⟨12, []⟩, false⟩, ⟨⟨12, []⟩, false⟩, ⟨⟨64, [.mat, .vec]⟩, true⟩] .leaf .leaf)
           .leaf)
          (.node 2256 [⟨⟨12, []⟩, false⟩, ⟨⟨12, []⟩, false⟩, ⟨⟨12, []⟩, false⟩, ⟨⟨64, [.mat, .vec]⟩, true⟩] .leaf .leaf))
         (.node 2259 [⟨⟨12, []⟩, false⟩, ⟨⟨12, []⟩, false⟩, ⟨⟨12, []⟩, false⟩, ⟨⟨64, [.mat, .vec]⟩, true⟩]
          (.node 2258 [⟨⟨12, []⟩, false⟩, ⟨⟨12, []⟩, false⟩, ⟨⟨64, [.mat, .vec]⟩, true⟩] .leaf .leaf)
          (.node 2260 [⟨⟨12, []⟩, false⟩, ⟨⟨12, []⟩, false⟩, ⟨⟨12, []⟩, false⟩, ⟨⟨64, [.mat, .vec]⟩, true⟩] .leaf .leaf))))))
     (.node 2297 [⟨⟨16, [.vec]⟩, false⟩, ⟨⟨16, [.vec]⟩, false⟩, ⟨⟨16, [.vec]⟩, true⟩]
      (.node 2279 []
       (.node 2270 []
        (.node 2266 []
         (.node 2264 []
          (.node 2263 []
           (.node 2262 [] .leaf .leaf)
           .leaf)
          (.node 2265 [] .leaf .leaf))
         (.node 2268 []
          (.node 2267 [] .leaf .leaf)
          (.node 2269 [] .leaf .leaf)))
        (.node 2275 []
         (.node 2273 []
          (.node 2272 []
           (.node 2271 [] .leaf .leaf)
           .leaf)
          (.node 2274 [] .leaf .leaf))
         (.node 2277 []
          (.node 2276 [] .leaf .leaf)
          (.node 2278 [] .leaf .leaf))))
       (.node 2288 [⟨⟨64, [.mat, .vec]⟩, false⟩]
        (.node 2284 [⟨⟨64, [.mat, .vec]⟩, true⟩]
         (.node 2282 []
          (.node 2281 []
           (.node 2280 [] .leaf .leaf)
           .leaf)
          (.node 2283 [] .leaf .leaf))
         (.node 2286 [⟨⟨64, [.mat, .vec]⟩, false⟩, ⟨⟨64, [.mat, .vec]⟩, false⟩, ⟨⟨64, [.mat, .vec]⟩, true⟩]
          (.node 2285 [⟨⟨64, [.mat, .vec]⟩, false⟩, ⟨⟨64, [.mat, .vec]⟩, true⟩] .leaf .leaf)
          (.node 2287 [⟨⟨64, [.mat, .vec]⟩, false⟩, ⟨⟨16, [.vec]⟩, false⟩, ⟨⟨16, [.vec]⟩, true⟩] .leaf .leaf)))
        (.node 2293 [⟨⟨16, [.vec]⟩, false⟩, ⟨⟨16, [.vec]⟩, true⟩]
         (.node 2291 [⟨⟨36, []⟩, false⟩, ⟨⟨36, []⟩, false⟩, ⟨⟨36, []⟩, true⟩]
          (.node 2290 [⟨⟨64, [.mat, .vec]⟩, false⟩, ⟨⟨64, [.mat, .vec]⟩, true⟩]
           (.node 2289 [⟨⟨64, [.mat, .vec]⟩, false⟩, ⟨⟨64, [.mat, .vec]⟩, true⟩] .leaf .leaf)
           .leaf)
          (.node 2292 [⟨⟨16, [.vec]⟩, false⟩, ⟨⟨16, [.vec]⟩, false⟩, ⟨⟨16, [.vec]⟩, true⟩] .leaf .leaf))
         (.node 2295 [⟨⟨64, [.mat, .vec]⟩, false⟩, ⟨⟨64, [.mat, .vec]⟩, false⟩, ⟨⟨64, [.mat, .vec]⟩, true⟩]
          (.node 2294 [⟨⟨64, [.mat, .vec]⟩, false⟩, ⟨⟨64, [.mat, .vec]⟩, false⟩, ⟨⟨64, [.mat, .vec]⟩, true⟩] .leaf .leaf)
          (.node 2296 [⟨⟨64, [.mat, .vec]⟩, true⟩] .leaf .leaf)))))
      (.node 2315 [⟨⟨64, [.mat, .vec]⟩, false⟩, ⟨⟨64, [.mat, .vec]⟩, false⟩, ⟨⟨64, [.mat, .vec]⟩, true⟩]
       (.node 2306 [⟨⟨64, [.mat, .vec]⟩, false⟩, ⟨⟨64, [.mat, .vec]⟩, false⟩, ⟨⟨64, [.mat, .vec]⟩, true⟩]
        (.node 2302 []
         (.node 2300 []
          (.node 2299 [⟨⟨12, []⟩, true⟩]
           (.node 2298 [⟨⟨12, []⟩, false⟩] .leaf .leaf)
           .leaf)
          (.node 2301 [] .leaf .leaf))
         (.node 2304 [⟨⟨64, [.mat, .vec]⟩, true⟩]
          (.node 2303 [] .leaf .leaf)
          (.node 2305 [⟨⟨64, [.mat, .vec]⟩, false⟩, ⟨⟨64, [.mat, .vec]⟩, true⟩] .leaf .leaf)))
        (.node 2311 [⟨⟨64, [.mat, .vec]⟩, false⟩, ⟨⟨16, [.vec]⟩, false⟩, ⟨⟨16, [.vec]⟩, true⟩]
         (.node 2309 [⟨⟨64, [.mat, .vec]⟩, false⟩, ⟨⟨64, [.mat, .vec]⟩, true⟩]
          (.node 2308 [⟨⟨64, [.mat, .vec]⟩, true⟩]
           (.node 2307 [⟨⟨64, [.mat, .vec]⟩, false⟩, ⟨⟨64, [.mat, .vec]⟩, false⟩, ⟨⟨64, [.mat, .vec]⟩, true⟩] .leaf .leaf)
           .leaf)
          (.node 2310 [⟨⟨64, [.mat, .vec]⟩, false⟩, ⟨⟨64, [.mat, .vec]⟩, false⟩, ⟨⟨64, [.mat, .vec]⟩, true⟩] .leaf .leaf))
         (.node 2313 [⟨⟨64, [.mat, .vec]⟩, false⟩, ⟨⟨64, [.mat, .vec]⟩, true⟩]
          (.node 2312 [⟨⟨64, [.mat, .vec]⟩, false⟩] .leaf .leaf)
          (.node 2314 [⟨⟨16, [.vec]⟩, false⟩, ⟨⟨16, [.vec]⟩, false⟩, ⟨⟨16, [.vec]⟩, true⟩] .leaf .leaf))))
       (.node 2324 [⟨⟨64, [.mat, .vec]⟩, false⟩, ⟨⟨64, [.mat, .vec]⟩, true⟩]
        (.node 2320 [⟨⟨64, [.mat, .vec]⟩, false⟩, ⟨⟨64, [.mat, .vec]⟩, true⟩]
         (.node 2318 [⟨⟨16, [.vec]⟩, false⟩, ⟨⟨16, [.vec]⟩, false⟩, ⟨⟨16, [.vec]⟩, true⟩]
          (.node 2317 [⟨⟨64, [.mat, .vec]⟩, true⟩]
           (.node 2316 [⟨⟨64, [.mat, .vec]⟩, false⟩, ⟨⟨64, [.mat, .vec]⟩, false⟩, ⟨⟨64, [.mat, .vec]⟩, true⟩] .leaf .leaf)
           .leaf)
          (.node 2319 [⟨⟨64, [.mat, .vec]⟩, true⟩] .leaf .leaf))
         (.node 2322 [⟨⟨64, [.mat, .vec]⟩, false⟩, ⟨⟨16, [.vec]⟩, false⟩, ⟨⟨16, [.vec]⟩, true⟩]
          (.node 2321 [⟨⟨64, [.mat, .vec]⟩, false⟩, ⟨⟨64, [.mat, .vec]⟩, false⟩, ⟨⟨64, [.mat, .vec]⟩, true⟩] .leaf .leaf)
          (.node 2323 [⟨⟨64, [.mat, .vec]⟩, false⟩] .leaf .leaf)))
        (.node 2329 [⟨⟨64, [.mat, .vec]⟩, false⟩, ⟨⟨64, [.mat, .vec]⟩, false⟩, ⟨⟨64, [.mat, .vec]⟩, true⟩]
         (.node 2327 [⟨⟨16, [.vec]⟩, false⟩, ⟨⟨16, [.vec]⟩, false⟩, ⟨⟨16, [.vec]⟩, true⟩]
          (.node 2326 [⟨⟨36, []⟩, false⟩, ⟨⟨36, []⟩, false⟩, ⟨⟨36, []⟩, true⟩]
           (.node 2325 [⟨⟨64, [.mat, .vec]⟩, false⟩, ⟨⟨64, [.mat, .vec]⟩, true⟩] .leaf .leaf)
           .leaf)
          (.node 2328 [⟨⟨16, [.vec]⟩, false⟩, ⟨⟨16, [.vec]⟩, true⟩] .leaf .leaf))
         (.node 2331 [⟨⟨64, [.mat, .vec]⟩, true⟩]
          (.node 2330 [⟨⟨64, [.mat, .vec]⟩, false⟩, ⟨⟨64, [.mat, .vec]⟩, false⟩, ⟨⟨64, [.mat, .vec]⟩, true⟩] .leaf .leaf)
          (.node 2332 [⟨⟨16, [.vec]⟩, false⟩, ⟨⟨16, [.vec]⟩, false⟩, ⟨⟨16, [.vec]⟩, true⟩] .leaf .leaf))))))))))

end Cglm.Acc
