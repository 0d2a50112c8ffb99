import Verif.Model.Reduction

/-!
Generated by tools/reduce_gen.py from /repo: public overloads of the reductions. Do not edit.
-/

namespace Verif.Reduction

/-- src/blas/vector/vector_blas.cpp (128 overloads) -/
def tBlasVec : List Overload := [
  -- src/blas/vector/vector_blas.cpp:2036-2036
  ⟨.asum, [.obj .vector .d true], (some .d), none, .core .asum .d none [0]⟩,
  -- src/blas/vector/vector_blas.cpp:2037-2037
  ⟨.asum, [.obj (.view1D .vec) .d true], (some .d), none, .core .asum .d none [0]⟩,
  -- src/blas/vector/vector_blas.cpp:2038-2040
  ⟨.asum, [.obj (.view1D .mat) .d true], (some .d), none, .core .asum .d none [0]⟩,
  -- src/blas/vector/vector_blas.cpp:2041-2043
  ⟨.asum, [.obj (.view1D .ten) .d true], (some .d), none, .core .asum .d none [0]⟩,
  -- src/blas/vector/vector_blas.cpp:2044-2044
  ⟨.asum, [.obj .vector .s true], (some .s), none, .core .asum .s none [0]⟩,
  -- src/blas/vector/vector_blas.cpp:2045-2045
  ⟨.asum, [.obj (.view1D .vec) .s true], (some .s), none, .core .asum .s none [0]⟩,
  -- src/blas/vector/vector_blas.cpp:2046-2048
  ⟨.asum, [.obj (.view1D .mat) .s true], (some .s), none, .core .asum .s none [0]⟩,
  -- src/blas/vector/vector_blas.cpp:2049-2051
  ⟨.asum, [.obj (.view1D .ten) .s true], (some .s), none, .core .asum .s none [0]⟩,
  -- src/blas/vector/vector_blas.cpp:2053-2053
  ⟨.asum, [.obj .vector .d true], none, (some .d), .call .asum [0]⟩,
  -- src/blas/vector/vector_blas.cpp:2054-2056
  ⟨.asum, [.obj (.view1D .vec) .d true], none, (some .d), .call .asum [0]⟩,
  -- src/blas/vector/vector_blas.cpp:2057-2059
  ⟨.asum, [.obj (.view1D .mat) .d true], none, (some .d), .call .asum [0]⟩,
  -- src/blas/vector/vector_blas.cpp:2060-2062
  ⟨.asum, [.obj (.view1D .ten) .d true], none, (some .d), .call .asum [0]⟩,
  -- src/blas/vector/vector_blas.cpp:2063-2063
  ⟨.asum, [.obj .vector .s true], none, (some .s), .call .asum [0]⟩,
  -- src/blas/vector/vector_blas.cpp:2064-2064
  ⟨.asum, [.obj (.view1D .vec) .s true], none, (some .s), .call .asum [0]⟩,
  -- src/blas/vector/vector_blas.cpp:2065-2067
  ⟨.asum, [.obj (.view1D .mat) .s true], none, (some .s), .call .asum [0]⟩,
  -- src/blas/vector/vector_blas.cpp:2068-2070
  ⟨.asum, [.obj (.view1D .ten) .s true], none, (some .s), .call .asum [0]⟩,
  -- src/blas/vector/vector_blas.cpp:2072-2072
  ⟨.sum, [.obj .vector .d true], (some .d), none, .core .sum .d none [0]⟩,
  -- src/blas/vector/vector_blas.cpp:2073-2073
  ⟨.sum, [.obj (.view1D .vec) .d true], (some .d), none, .core .sum .d none [0]⟩,
  -- src/blas/vector/vector_blas.cpp:2074-2076
  ⟨.sum, [.obj (.view1D .mat) .d true], (some .d), none, .core .sum .d none [0]⟩,
  -- src/blas/vector/vector_blas.cpp:2077-2079
  ⟨.sum, [.obj (.view1D .ten) .d true], (some .d), none, .core .sum .d none [0]⟩,
  -- src/blas/vector/vector_blas.cpp:2080-2080
  ⟨.sum, [.obj .vector .s true], (some .s), none, .core .sum .s none [0]⟩,
  -- src/blas/vector/vector_blas.cpp:2081-2081
  ⟨.sum, [.obj (.view1D .vec) .s true], (some .s), none, .core .sum .s none [0]⟩,
  -- src/blas/vector/vector_blas.cpp:2082-2082
  ⟨.sum, [.obj (.view1D .mat) .s true], (some .s), none, .core .sum .s none [0]⟩,
  -- src/blas/vector/vector_blas.cpp:2083-2085
  ⟨.sum, [.obj (.view1D .ten) .s true], (some .s), none, .core .sum .s none [0]⟩,
  -- src/blas/vector/vector_blas.cpp:2087-2087
  ⟨.sum, [.obj .vector .d true], none, (some .d), .call .sum [0]⟩,
  -- src/blas/vector/vector_blas.cpp:2088-2088
  ⟨.sum, [.obj (.view1D .vec) .d true], none, (some .d), .call .sum [0]⟩,
  -- src/blas/vector/vector_blas.cpp:2089-2091
  ⟨.sum, [.obj (.view1D .mat) .d true], none, (some .d), .call .sum [0]⟩,
  -- src/blas/vector/vector_blas.cpp:2092-2094
  ⟨.sum, [.obj (.view1D .ten) .d true], none, (some .d), .call .sum [0]⟩,
  -- src/blas/vector/vector_blas.cpp:2095-2095
  ⟨.sum, [.obj .vector .s true], none, (some .s), .call .sum [0]⟩,
  -- src/blas/vector/vector_blas.cpp:2096-2096
  ⟨.sum, [.obj (.view1D .vec) .s true], none, (some .s), .call .sum [0]⟩,
  -- src/blas/vector/vector_blas.cpp:2097-2099
  ⟨.sum, [.obj (.view1D .mat) .s true], none, (some .s), .call .sum [0]⟩,
  -- src/blas/vector/vector_blas.cpp:2100-2102
  ⟨.sum, [.obj (.view1D .ten) .s true], none, (some .s), .call .sum [0]⟩,
  -- src/blas/vector/vector_blas.cpp:2870-2872
  ⟨.dot, [.obj .vector .d true, .obj .vector .d true], (some .d), none, .core .dot .d none [0, 1]⟩,
  -- src/blas/vector/vector_blas.cpp:2873-2875
  ⟨.dot, [.obj .vector .d true, .obj (.view1D .vec) .d true], (some .d), none, .core .dot .d none [0, 1]⟩,
  -- src/blas/vector/vector_blas.cpp:2876-2879
  ⟨.dot, [.obj .vector .d true, .obj (.view1D .mat) .d true], (some .d), none, .core .dot .d none [0, 1]⟩,
  -- src/blas/vector/vector_blas.cpp:2880-2883
  ⟨.dot, [.obj .vector .d true, .obj (.view1D .ten) .d true], (some .d), none, .core .dot .d none [0, 1]⟩,
  -- src/blas/vector/vector_blas.cpp:2884-2886
  ⟨.dot, [.obj (.view1D .vec) .d true, .obj .vector .d true], (some .d), none, .core .dot .d none [0, 1]⟩,
  -- src/blas/vector/vector_blas.cpp:2887-2890
  ⟨.dot, [.obj (.view1D .vec) .d true, .obj (.view1D .vec) .d true], (some .d), none, .core .dot .d none [0, 1]⟩,
  -- src/blas/vector/vector_blas.cpp:2891-2894
  ⟨.dot, [.obj (.view1D .vec) .d true, .obj (.view1D .mat) .d true], (some .d), none, .core .dot .d none [0, 1]⟩,
  -- src/blas/vector/vector_blas.cpp:2895-2898
  ⟨.dot, [.obj (.view1D .vec) .d true, .obj (.view1D .ten) .d true], (some .d), none, .core .dot .d none [0, 1]⟩,
  -- src/blas/vector/vector_blas.cpp:2899-2902
  ⟨.dot, [.obj (.view1D .mat) .d true, .obj .vector .d true], (some .d), none, .core .dot .d none [0, 1]⟩,
  -- src/blas/vector/vector_blas.cpp:2903-2906
  ⟨.dot, [.obj (.view1D .mat) .d true, .obj (.view1D .vec) .d true], (some .d), none, .core .dot .d none [0, 1]⟩,
  -- src/blas/vector/vector_blas.cpp:2907-2910
  ⟨.dot, [.obj (.view1D .mat) .d true, .obj (.view1D .mat) .d true], (some .d), none, .core .dot .d none [0, 1]⟩,
  -- src/blas/vector/vector_blas.cpp:2911-2914
  ⟨.dot, [.obj (.view1D .mat) .d true, .obj (.view1D .ten) .d true], (some .d), none, .core .dot .d none [0, 1]⟩,
  -- src/blas/vector/vector_blas.cpp:2915-2918
  ⟨.dot, [.obj (.view1D .ten) .d true, .obj .vector .d true], (some .d), none, .core .dot .d none [0, 1]⟩,
  -- src/blas/vector/vector_blas.cpp:2919-2922
  ⟨.dot, [.obj (.view1D .ten) .d true, .obj (.view1D .vec) .d true], (some .d), none, .core .dot .d none [0, 1]⟩,
  -- src/blas/vector/vector_blas.cpp:2923-2926
  ⟨.dot, [.obj (.view1D .ten) .d true, .obj (.view1D .mat) .d true], (some .d), none, .core .dot .d none [0, 1]⟩,
  -- src/blas/vector/vector_blas.cpp:2927-2930
  ⟨.dot, [.obj (.view1D .ten) .d true, .obj (.view1D .ten) .d true], (some .d), none, .core .dot .d none [0, 1]⟩,
  -- src/blas/vector/vector_blas.cpp:2931-2933
  ⟨.dot, [.obj .vector .s true, .obj .vector .s true], (some .s), none, .core .dot .s none [0, 1]⟩,
  -- src/blas/vector/vector_blas.cpp:2934-2936
  ⟨.dot, [.obj .vector .s true, .obj (.view1D .vec) .s true], (some .s), none, .core .dot .s none [0, 1]⟩,
  -- src/blas/vector/vector_blas.cpp:2937-2940
  ⟨.dot, [.obj .vector .s true, .obj (.view1D .mat) .s true], (some .s), none, .core .dot .s none [0, 1]⟩,
  -- src/blas/vector/vector_blas.cpp:2941-2944
  ⟨.dot, [.obj .vector .s true, .obj (.view1D .ten) .s true], (some .s), none, .core .dot .s none [0, 1]⟩,
  -- src/blas/vector/vector_blas.cpp:2945-2947
  ⟨.dot, [.obj (.view1D .vec) .s true, .obj .vector .s true], (some .s), none, .core .dot .s none [0, 1]⟩,
  -- src/blas/vector/vector_blas.cpp:2948-2951
  ⟨.dot, [.obj (.view1D .vec) .s true, .obj (.view1D .vec) .s true], (some .s), none, .core .dot .s none [0, 1]⟩,
  -- src/blas/vector/vector_blas.cpp:2952-2955
  ⟨.dot, [.obj (.view1D .vec) .s true, .obj (.view1D .mat) .s true], (some .s), none, .core .dot .s none [0, 1]⟩,
  -- src/blas/vector/vector_blas.cpp:2956-2959
  ⟨.dot, [.obj (.view1D .vec) .s true, .obj (.view1D .ten) .s true], (some .s), none, .core .dot .s none [0, 1]⟩,
  -- src/blas/vector/vector_blas.cpp:2960-2963
  ⟨.dot, [.obj (.view1D .mat) .s true, .obj .vector .s true], (some .s), none, .core .dot .s none [0, 1]⟩,
  -- src/blas/vector/vector_blas.cpp:2964-2967
  ⟨.dot, [.obj (.view1D .mat) .s true, .obj (.view1D .vec) .s true], (some .s), none, .core .dot .s none [0, 1]⟩,
  -- src/blas/vector/vector_blas.cpp:2968-2971
  ⟨.dot, [.obj (.view1D .mat) .s true, .obj (.view1D .mat) .s true], (some .s), none, .core .dot .s none [0, 1]⟩,
  -- src/blas/vector/vector_blas.cpp:2972-2975
  ⟨.dot, [.obj (.view1D .mat) .s true, .obj (.view1D .ten) .s true], (some .s), none, .core .dot .s none [0, 1]⟩,
  -- src/blas/vector/vector_blas.cpp:2976-2979
  ⟨.dot, [.obj (.view1D .ten) .s true, .obj .vector .s true], (some .s), none, .core .dot .s none [0, 1]⟩,
  -- src/blas/vector/vector_blas.cpp:2980-2983
  ⟨.dot, [.obj (.view1D .ten) .s true, .obj (.view1D .vec) .s true], (some .s), none, .core .dot .s none [0, 1]⟩,
  -- src/blas/vector/vector_blas.cpp:2984-2987
  ⟨.dot, [.obj (.view1D .ten) .s true, .obj (.view1D .mat) .s true], (some .s), none, .core .dot .s none [0, 1]⟩,
  -- src/blas/vector/vector_blas.cpp:2988-2991
  ⟨.dot, [.obj (.view1D .ten) .s true, .obj (.view1D .ten) .s true], (some .s), none, .core .dot .s none [0, 1]⟩,
  -- src/blas/vector/vector_blas.cpp:2993-2995
  ⟨.dot, [.obj .vector .d true, .obj .vector .d true], none, (some .d), .call .dot [0, 1]⟩,
  -- src/blas/vector/vector_blas.cpp:2996-2999
  ⟨.dot, [.obj .vector .d true, .obj (.view1D .vec) .d true], none, (some .d), .call .dot [0, 1]⟩,
  -- src/blas/vector/vector_blas.cpp:3000-3003
  ⟨.dot, [.obj .vector .d true, .obj (.view1D .mat) .d true], none, (some .d), .call .dot [0, 1]⟩,
  -- src/blas/vector/vector_blas.cpp:3004-3007
  ⟨.dot, [.obj .vector .d true, .obj (.view1D .ten) .d true], none, (some .d), .call .dot [0, 1]⟩,
  -- src/blas/vector/vector_blas.cpp:3008-3011
  ⟨.dot, [.obj (.view1D .vec) .d true, .obj .vector .d true], none, (some .d), .call .dot [0, 1]⟩,
  -- src/blas/vector/vector_blas.cpp:3012-3015
  ⟨.dot, [.obj (.view1D .vec) .d true, .obj (.view1D .vec) .d true], none, (some .d), .call .dot [0, 1]⟩,
  -- src/blas/vector/vector_blas.cpp:3016-3019
  ⟨.dot, [.obj (.view1D .vec) .d true, .obj (.view1D .mat) .d true], none, (some .d), .call .dot [0, 1]⟩,
  -- src/blas/vector/vector_blas.cpp:3020-3023
  ⟨.dot, [.obj (.view1D .vec) .d true, .obj (.view1D .ten) .d true], none, (some .d), .call .dot [0, 1]⟩,
  -- src/blas/vector/vector_blas.cpp:3024-3027
  ⟨.dot, [.obj (.view1D .mat) .d true, .obj .vector .d true], none, (some .d), .call .dot [0, 1]⟩,
  -- src/blas/vector/vector_blas.cpp:3028-3031
  ⟨.dot, [.obj (.view1D .mat) .d true, .obj (.view1D .vec) .d true], none, (some .d), .call .dot [0, 1]⟩,
  -- src/blas/vector/vector_blas.cpp:3032-3035
  ⟨.dot, [.obj (.view1D .mat) .d true, .obj (.view1D .mat) .d true], none, (some .d), .call .dot [0, 1]⟩,
  -- src/blas/vector/vector_blas.cpp:3036-3039
  ⟨.dot, [.obj (.view1D .mat) .d true, .obj (.view1D .ten) .d true], none, (some .d), .call .dot [0, 1]⟩,
  -- src/blas/vector/vector_blas.cpp:3040-3043
  ⟨.dot, [.obj (.view1D .ten) .d true, .obj .vector .d true], none, (some .d), .call .dot [0, 1]⟩,
  -- src/blas/vector/vector_blas.cpp:3044-3047
  ⟨.dot, [.obj (.view1D .ten) .d true, .obj (.view1D .vec) .d true], none, (some .d), .call .dot [0, 1]⟩,
  -- src/blas/vector/vector_blas.cpp:3048-3051
  ⟨.dot, [.obj (.view1D .ten) .d true, .obj (.view1D .mat) .d true], none, (some .d), .call .dot [0, 1]⟩,
  -- src/blas/vector/vector_blas.cpp:3052-3055
  ⟨.dot, [.obj (.view1D .ten) .d true, .obj (.view1D .ten) .d true], none, (some .d), .call .dot [0, 1]⟩,
  -- src/blas/vector/vector_blas.cpp:3056-3058
  ⟨.dot, [.obj .vector .s true, .obj .vector .s true], none, (some .s), .call .dot [0, 1]⟩,
  -- src/blas/vector/vector_blas.cpp:3059-3062
  ⟨.dot, [.obj .vector .s true, .obj (.view1D .vec) .s true], none, (some .s), .call .dot [0, 1]⟩,
  -- src/blas/vector/vector_blas.cpp:3063-3066
  ⟨.dot, [.obj .vector .s true, .obj (.view1D .mat) .s true], none, (some .s), .call .dot [0, 1]⟩,
  -- src/blas/vector/vector_blas.cpp:3067-3070
  ⟨.dot, [.obj .vector .s true, .obj (.view1D .ten) .s true], none, (some .s), .call .dot [0, 1]⟩,
  -- src/blas/vector/vector_blas.cpp:3071-3074
  ⟨.dot, [.obj (.view1D .vec) .s true, .obj .vector .s true], none, (some .s), .call .dot [0, 1]⟩,
  -- src/blas/vector/vector_blas.cpp:3075-3078
  ⟨.dot, [.obj (.view1D .vec) .s true, .obj (.view1D .vec) .s true], none, (some .s), .call .dot [0, 1]⟩,
  -- src/blas/vector/vector_blas.cpp:3079-3082
  ⟨.dot, [.obj (.view1D .vec) .s true, .obj (.view1D .mat) .s true], none, (some .s), .call .dot [0, 1]⟩,
  -- src/blas/vector/vector_blas.cpp:3083-3086
  ⟨.dot, [.obj (.view1D .vec) .s true, .obj (.view1D .ten) .s true], none, (some .s), .call .dot [0, 1]⟩,
  -- src/blas/vector/vector_blas.cpp:3087-3090
  ⟨.dot, [.obj (.view1D .mat) .s true, .obj .vector .s true], none, (some .s), .call .dot [0, 1]⟩,
  -- src/blas/vector/vector_blas.cpp:3091-3094
  ⟨.dot, [.obj (.view1D .mat) .s true, .obj (.view1D .vec) .s true], none, (some .s), .call .dot [0, 1]⟩,
  -- src/blas/vector/vector_blas.cpp:3095-3098
  ⟨.dot, [.obj (.view1D .mat) .s true, .obj (.view1D .mat) .s true], none, (some .s), .call .dot [0, 1]⟩,
  -- src/blas/vector/vector_blas.cpp:3099-3102
  ⟨.dot, [.obj (.view1D .mat) .s true, .obj (.view1D .ten) .s true], none, (some .s), .call .dot [0, 1]⟩,
  -- src/blas/vector/vector_blas.cpp:3103-3106
  ⟨.dot, [.obj (.view1D .ten) .s true, .obj .vector .s true], none, (some .s), .call .dot [0, 1]⟩,
  -- src/blas/vector/vector_blas.cpp:3107-3110
  ⟨.dot, [.obj (.view1D .ten) .s true, .obj (.view1D .vec) .s true], none, (some .s), .call .dot [0, 1]⟩,
  -- src/blas/vector/vector_blas.cpp:3111-3114
  ⟨.dot, [.obj (.view1D .ten) .s true, .obj (.view1D .mat) .s true], none, (some .s), .call .dot [0, 1]⟩,
  -- src/blas/vector/vector_blas.cpp:3115-3118
  ⟨.dot, [.obj (.view1D .ten) .s true, .obj (.view1D .ten) .s true], none, (some .s), .call .dot [0, 1]⟩,
  -- src/blas/vector/vector_blas.cpp:3120-3120
  ⟨.nrm1, [.obj .vector .d true], (some .d), none, .core .nrm1 .d none [0]⟩,
  -- src/blas/vector/vector_blas.cpp:3121-3121
  ⟨.nrm1, [.obj (.view1D .vec) .d true], (some .d), none, .core .nrm1 .d none [0]⟩,
  -- src/blas/vector/vector_blas.cpp:3122-3124
  ⟨.nrm1, [.obj (.view1D .mat) .d true], (some .d), none, .core .nrm1 .d none [0]⟩,
  -- src/blas/vector/vector_blas.cpp:3125-3127
  ⟨.nrm1, [.obj (.view1D .ten) .d true], (some .d), none, .core .nrm1 .d none [0]⟩,
  -- src/blas/vector/vector_blas.cpp:3128-3128
  ⟨.nrm1, [.obj .vector .s true], (some .s), none, .core .nrm1 .s none [0]⟩,
  -- src/blas/vector/vector_blas.cpp:3129-3129
  ⟨.nrm1, [.obj (.view1D .vec) .s true], (some .s), none, .core .nrm1 .s none [0]⟩,
  -- src/blas/vector/vector_blas.cpp:3130-3132
  ⟨.nrm1, [.obj (.view1D .mat) .s true], (some .s), none, .core .nrm1 .s none [0]⟩,
  -- src/blas/vector/vector_blas.cpp:3133-3135
  ⟨.nrm1, [.obj (.view1D .ten) .s true], (some .s), none, .core .nrm1 .s none [0]⟩,
  -- src/blas/vector/vector_blas.cpp:3137-3137
  ⟨.nrm1, [.obj .vector .d true], none, (some .d), .call .nrm1 [0]⟩,
  -- src/blas/vector/vector_blas.cpp:3138-3140
  ⟨.nrm1, [.obj (.view1D .vec) .d true], none, (some .d), .call .nrm1 [0]⟩,
  -- src/blas/vector/vector_blas.cpp:3141-3143
  ⟨.nrm1, [.obj (.view1D .mat) .d true], none, (some .d), .call .nrm1 [0]⟩,
  -- src/blas/vector/vector_blas.cpp:3144-3146
  ⟨.nrm1, [.obj (.view1D .ten) .d true], none, (some .d), .call .nrm1 [0]⟩,
  -- src/blas/vector/vector_blas.cpp:3147-3147
  ⟨.nrm1, [.obj .vector .s true], none, (some .s), .call .nrm1 [0]⟩,
  -- src/blas/vector/vector_blas.cpp:3148-3148
  ⟨.nrm1, [.obj (.view1D .vec) .s true], none, (some .s), .call .nrm1 [0]⟩,
  -- src/blas/vector/vector_blas.cpp:3149-3151
  ⟨.nrm1, [.obj (.view1D .mat) .s true], none, (some .s), .call .nrm1 [0]⟩,
  -- src/blas/vector/vector_blas.cpp:3152-3154
  ⟨.nrm1, [.obj (.view1D .ten) .s true], none, (some .s), .call .nrm1 [0]⟩,
  -- src/blas/vector/vector_blas.cpp:3156-3156
  ⟨.nrm2, [.obj .vector .d true], (some .d), none, .core .nrm2 .d none [0]⟩,
  -- src/blas/vector/vector_blas.cpp:3157-3157
  ⟨.nrm2, [.obj (.view1D .vec) .d true], (some .d), none, .core .nrm2 .d none [0]⟩,
  -- src/blas/vector/vector_blas.cpp:3158-3160
  ⟨.nrm2, [.obj (.view1D .mat) .d true], (some .d), none, .core .nrm2 .d none [0]⟩,
  -- src/blas/vector/vector_blas.cpp:3161-3163
  ⟨.nrm2, [.obj (.view1D .ten) .d true], (some .d), none, .core .nrm2 .d none [0]⟩,
  -- src/blas/vector/vector_blas.cpp:3164-3164
  ⟨.nrm2, [.obj .vector .s true], (some .s), none, .core .nrm2 .s none [0]⟩,
  -- src/blas/vector/vector_blas.cpp:3165-3165
  ⟨.nrm2, [.obj (.view1D .vec) .s true], (some .s), none, .core .nrm2 .s none [0]⟩,
  -- src/blas/vector/vector_blas.cpp:3166-3168
  ⟨.nrm2, [.obj (.view1D .mat) .s true], (some .s), none, .core .nrm2 .s none [0]⟩,
  -- src/blas/vector/vector_blas.cpp:3169-3171
  ⟨.nrm2, [.obj (.view1D .ten) .s true], (some .s), none, .core .nrm2 .s none [0]⟩,
  -- src/blas/vector/vector_blas.cpp:3173-3173
  ⟨.nrm2, [.obj .vector .d true], none, (some .d), .call .nrm2 [0]⟩,
  -- src/blas/vector/vector_blas.cpp:3174-3176
  ⟨.nrm2, [.obj (.view1D .vec) .d true], none, (some .d), .call .nrm2 [0]⟩,
  -- src/blas/vector/vector_blas.cpp:3177-3179
  ⟨.nrm2, [.obj (.view1D .mat) .d true], none, (some .d), .call .nrm2 [0]⟩,
  -- src/blas/vector/vector_blas.cpp:3180-3182
  ⟨.nrm2, [.obj (.view1D .ten) .d true], none, (some .d), .call .nrm2 [0]⟩,
  -- src/blas/vector/vector_blas.cpp:3183-3183
  ⟨.nrm2, [.obj .vector .s true], none, (some .s), .call .nrm2 [0]⟩,
  -- src/blas/vector/vector_blas.cpp:3184-3184
  ⟨.nrm2, [.obj (.view1D .vec) .s true], none, (some .s), .call .nrm2 [0]⟩,
  -- src/blas/vector/vector_blas.cpp:3185-3187
  ⟨.nrm2, [.obj (.view1D .mat) .s true], none, (some .s), .call .nrm2 [0]⟩,
  -- src/blas/vector/vector_blas.cpp:3188-3190
  ⟨.nrm2, [.obj (.view1D .ten) .s true], none, (some .s), .call .nrm2 [0]⟩]

/-- src/vml/vector/vector_vml.cpp (16 overloads) -/
def tVmlVec : List Overload := [
  -- src/vml/vector/vector_vml.cpp:6611-6613
  ⟨.max, [.obj .vector .d true], (some .d), none, .core .vmax .d (some .vector) [0]⟩,
  -- src/vml/vector/vector_vml.cpp:6614-6616
  ⟨.max, [.obj (.view1D .vec) .d true], (some .d), none, .core .vmax .d (some (.view1D .vec)) [0]⟩,
  -- src/vml/vector/vector_vml.cpp:6617-6619
  ⟨.max, [.obj (.view1D .mat) .d true], (some .d), none, .core .vmax .d (some (.view1D .mat)) [0]⟩,
  -- src/vml/vector/vector_vml.cpp:6620-6622
  ⟨.max, [.obj (.view1D .ten) .d true], (some .d), none, .core .vmax .d (some (.view1D .ten)) [0]⟩,
  -- src/vml/vector/vector_vml.cpp:6623-6623
  ⟨.max, [.obj .vector .s true], (some .s), none, .core .vmax .s (some .vector) [0]⟩,
  -- src/vml/vector/vector_vml.cpp:6624-6626
  ⟨.max, [.obj (.view1D .vec) .s true], (some .s), none, .core .vmax .s (some (.view1D .vec)) [0]⟩,
  -- src/vml/vector/vector_vml.cpp:6627-6629
  ⟨.max, [.obj (.view1D .mat) .s true], (some .s), none, .core .vmax .s (some (.view1D .mat)) [0]⟩,
  -- src/vml/vector/vector_vml.cpp:6630-6632
  ⟨.max, [.obj (.view1D .ten) .s true], (some .s), none, .core .vmax .s (some (.view1D .ten)) [0]⟩,
  -- src/vml/vector/vector_vml.cpp:6633-6635
  ⟨.min, [.obj .vector .d true], (some .d), none, .core .vmin .d (some .vector) [0]⟩,
  -- src/vml/vector/vector_vml.cpp:6636-6638
  ⟨.min, [.obj (.view1D .vec) .d true], (some .d), none, .core .vmin .d (some (.view1D .vec)) [0]⟩,
  -- src/vml/vector/vector_vml.cpp:6639-6641
  ⟨.min, [.obj (.view1D .mat) .d true], (some .d), none, .core .vmin .d (some (.view1D .mat)) [0]⟩,
  -- src/vml/vector/vector_vml.cpp:6642-6644
  ⟨.min, [.obj (.view1D .ten) .d true], (some .d), none, .core .vmin .d (some (.view1D .ten)) [0]⟩,
  -- src/vml/vector/vector_vml.cpp:6645-6645
  ⟨.min, [.obj .vector .s true], (some .s), none, .core .vmin .s (some .vector) [0]⟩,
  -- src/vml/vector/vector_vml.cpp:6646-6648
  ⟨.min, [.obj (.view1D .vec) .s true], (some .s), none, .core .vmin .s (some (.view1D .vec)) [0]⟩,
  -- src/vml/vector/vector_vml.cpp:6649-6651
  ⟨.min, [.obj (.view1D .mat) .s true], (some .s), none, .core .vmin .s (some (.view1D .mat)) [0]⟩,
  -- src/vml/vector/vector_vml.cpp:6652-6654
  ⟨.min, [.obj (.view1D .ten) .s true], (some .s), none, .core .vmin .s (some (.view1D .ten)) [0]⟩]

/-- src/vml/matrix/matrix_vml.cpp (20 overloads) -/
def tVmlMat : List Overload := [
  -- src/vml/matrix/matrix_vml.cpp:7351-7353
  ⟨.max, [.obj .crs .d true], (some .d), none, .core .mmax .d (some .crs) [0]⟩,
  -- src/vml/matrix/matrix_vml.cpp:7354-7356
  ⟨.max, [.obj .dense .d true], (some .d), none, .core .mmax .d (some .dense) [0]⟩,
  -- src/vml/matrix/matrix_vml.cpp:7357-7359
  ⟨.max, [.obj (.viewDense .vec) .d true], (some .d), none, .core .mmax .d (some (.viewDense .vec)) [0]⟩,
  -- src/vml/matrix/matrix_vml.cpp:7360-7362
  ⟨.max, [.obj (.viewDense .mat) .d true], (some .d), none, .core .mmax .d (some (.viewDense .mat)) [0]⟩,
  -- src/vml/matrix/matrix_vml.cpp:7363-7365
  ⟨.max, [.obj (.viewDense .ten) .d true], (some .d), none, .core .mmax .d (some (.viewDense .ten)) [0]⟩,
  -- src/vml/matrix/matrix_vml.cpp:7366-7368
  ⟨.max, [.obj .crs .s true], (some .s), none, .core .mmax .s (some .crs) [0]⟩,
  -- src/vml/matrix/matrix_vml.cpp:7369-7371
  ⟨.max, [.obj .dense .s true], (some .s), none, .core .mmax .s (some .dense) [0]⟩,
  -- src/vml/matrix/matrix_vml.cpp:7372-7374
  ⟨.max, [.obj (.viewDense .vec) .s true], (some .s), none, .core .mmax .s (some (.viewDense .vec)) [0]⟩,
  -- src/vml/matrix/matrix_vml.cpp:7375-7377
  ⟨.max, [.obj (.viewDense .mat) .s true], (some .s), none, .core .mmax .s (some (.viewDense .mat)) [0]⟩,
  -- src/vml/matrix/matrix_vml.cpp:7378-7380
  ⟨.max, [.obj (.viewDense .ten) .s true], (some .s), none, .core .mmax .s (some (.viewDense .ten)) [0]⟩,
  -- src/vml/matrix/matrix_vml.cpp:7381-7383
  ⟨.min, [.obj .crs .d true], (some .d), none, .core .mmin .d (some .crs) [0]⟩,
  -- src/vml/matrix/matrix_vml.cpp:7384-7386
  ⟨.min, [.obj .dense .d true], (some .d), none, .core .mmin .d (some .dense) [0]⟩,
  -- src/vml/matrix/matrix_vml.cpp:7387-7389
  ⟨.min, [.obj (.viewDense .vec) .d true], (some .d), none, .core .mmin .d (some (.viewDense .vec)) [0]⟩,
  -- src/vml/matrix/matrix_vml.cpp:7390-7392
  ⟨.min, [.obj (.viewDense .mat) .d true], (some .d), none, .core .mmin .d (some (.viewDense .mat)) [0]⟩,
  -- src/vml/matrix/matrix_vml.cpp:7393-7395
  ⟨.min, [.obj (.viewDense .ten) .d true], (some .d), none, .core .mmin .d (some (.viewDense .ten)) [0]⟩,
  -- src/vml/matrix/matrix_vml.cpp:7396-7398
  ⟨.min, [.obj .crs .s true], (some .s), none, .core .mmin .s (some .crs) [0]⟩,
  -- src/vml/matrix/matrix_vml.cpp:7399-7401
  ⟨.min, [.obj .dense .s true], (some .s), none, .core .mmin .s (some .dense) [0]⟩,
  -- src/vml/matrix/matrix_vml.cpp:7402-7404
  ⟨.min, [.obj (.viewDense .vec) .s true], (some .s), none, .core .mmin .s (some (.viewDense .vec)) [0]⟩,
  -- src/vml/matrix/matrix_vml.cpp:7405-7407
  ⟨.min, [.obj (.viewDense .mat) .s true], (some .s), none, .core .mmin .s (some (.viewDense .mat)) [0]⟩,
  -- src/vml/matrix/matrix_vml.cpp:7408-7410
  ⟨.min, [.obj (.viewDense .ten) .s true], (some .s), none, .core .mmin .s (some (.viewDense .ten)) [0]⟩]

/-- src/vml/tensor/tensor_vml.cpp (20 overloads) -/
def tVmlTen : List Overload := [
  -- src/vml/tensor/tensor_vml.cpp:7574-7576
  ⟨.max, [.obj .tcrs .d true], (some .d), none, .core .tmax .d (some .tcrs) [0]⟩,
  -- src/vml/tensor/tensor_vml.cpp:7577-7579
  ⟨.max, [.obj .tdense .d true], (some .d), none, .core .tmax .d (some .tdense) [0]⟩,
  -- src/vml/tensor/tensor_vml.cpp:7580-7582
  ⟨.max, [.obj (.viewTDense .vec) .d true], (some .d), none, .core .tmax .d (some (.viewTDense .vec)) [0]⟩,
  -- src/vml/tensor/tensor_vml.cpp:7583-7585
  ⟨.max, [.obj (.viewTDense .mat) .d true], (some .d), none, .core .tmax .d (some (.viewTDense .mat)) [0]⟩,
  -- src/vml/tensor/tensor_vml.cpp:7586-7589
  ⟨.max, [.obj (.viewTDense .ten) .d true], (some .d), none, .core .tmax .d (some (.viewTDense .ten)) [0]⟩,
  -- src/vml/tensor/tensor_vml.cpp:7590-7592
  ⟨.max, [.obj .tcrs .s true], (some .s), none, .core .tmax .s (some .tcrs) [0]⟩,
  -- src/vml/tensor/tensor_vml.cpp:7593-7595
  ⟨.max, [.obj .tdense .s true], (some .s), none, .core .tmax .s (some .tdense) [0]⟩,
  -- src/vml/tensor/tensor_vml.cpp:7596-7598
  ⟨.max, [.obj (.viewTDense .vec) .s true], (some .s), none, .core .tmax .s (some (.viewTDense .vec)) [0]⟩,
  -- src/vml/tensor/tensor_vml.cpp:7599-7601
  ⟨.max, [.obj (.viewTDense .mat) .s true], (some .s), none, .core .tmax .s (some (.viewTDense .mat)) [0]⟩,
  -- src/vml/tensor/tensor_vml.cpp:7602-7605
  ⟨.max, [.obj (.viewTDense .ten) .s true], (some .s), none, .core .tmax .s (some (.viewTDense .ten)) [0]⟩,
  -- src/vml/tensor/tensor_vml.cpp:7606-7608
  ⟨.min, [.obj .tcrs .d true], (some .d), none, .core .tmin .d (some .tcrs) [0]⟩,
  -- src/vml/tensor/tensor_vml.cpp:7609-7611
  ⟨.min, [.obj .tdense .d true], (some .d), none, .core .tmin .d (some .tdense) [0]⟩,
  -- src/vml/tensor/tensor_vml.cpp:7612-7614
  ⟨.min, [.obj (.viewTDense .vec) .d true], (some .d), none, .core .tmin .d (some (.viewTDense .vec)) [0]⟩,
  -- src/vml/tensor/tensor_vml.cpp:7615-7617
  ⟨.min, [.obj (.viewTDense .mat) .d true], (some .d), none, .core .tmin .d (some (.viewTDense .mat)) [0]⟩,
  -- src/vml/tensor/tensor_vml.cpp:7618-7621
  ⟨.min, [.obj (.viewTDense .ten) .d true], (some .d), none, .core .tmin .d (some (.viewTDense .ten)) [0]⟩,
  -- src/vml/tensor/tensor_vml.cpp:7622-7624
  ⟨.min, [.obj .tcrs .s true], (some .s), none, .core .tmin .s (some .tcrs) [0]⟩,
  -- src/vml/tensor/tensor_vml.cpp:7625-7627
  ⟨.min, [.obj .tdense .s true], (some .s), none, .core .tmin .s (some .tdense) [0]⟩,
  -- src/vml/tensor/tensor_vml.cpp:7628-7630
  ⟨.min, [.obj (.viewTDense .vec) .s true], (some .s), none, .core .tmin .s (some (.viewTDense .vec)) [0]⟩,
  -- src/vml/tensor/tensor_vml.cpp:7631-7633
  ⟨.min, [.obj (.viewTDense .mat) .s true], (some .s), none, .core .tmin .s (some (.viewTDense .mat)) [0]⟩,
  -- src/vml/tensor/tensor_vml.cpp:7634-7637
  ⟨.min, [.obj (.viewTDense .ten) .s true], (some .s), none, .core .tmin .s (some (.viewTDense .ten)) [0]⟩]

/-- all overloads of the reductions -/
def reductions : List Overload := tBlasVec ++ tVmlVec ++ tVmlMat ++ tVmlTen

end Verif.Reduction
