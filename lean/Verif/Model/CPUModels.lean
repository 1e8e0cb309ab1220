/-!
Model of pepclibs/CPUModels.py: the numbers of CPU models and the groups of them.
-/

namespace Verif.CPUModels

/-- Models: pepclibs/CPUModels.py:16-19. -/
def ATOM_DARKMONT_X : Nat := 0xdd

/-- Models: pepclibs/CPUModels.py:20-23. -/
def ATOM_CRESTMONT_X : Nat := 0xaf

/-- Models: pepclibs/CPUModels.py:24-27. -/
def GRANITERAPIDS_X : Nat := 0xad

/-- Models: pepclibs/CPUModels.py:28-31. -/
def GRANITERAPIDS_D : Nat := 0xae

/-- Models: pepclibs/CPUModels.py:32-35. -/
def EMERALDRAPIDS_X : Nat := 0xcf

/-- Models: pepclibs/CPUModels.py:36-39. -/
def SAPPHIRERAPIDS_X : Nat := 0x8f

/-- Models: pepclibs/CPUModels.py:40-43. -/
def ICELAKE_X : Nat := 0x6a

/-- Models: pepclibs/CPUModels.py:44-47. -/
def ICELAKE_D : Nat := 0x6c

/-- Models: pepclibs/CPUModels.py:48-51. -/
def SKYLAKE_X : Nat := 0x55

/-- Models: pepclibs/CPUModels.py:52-55. -/
def BROADWELL_X : Nat := 0x4f

/-- Models: pepclibs/CPUModels.py:56-59. -/
def BROADWELL_G : Nat := 0x47

/-- Models: pepclibs/CPUModels.py:60-63. -/
def BROADWELL_D : Nat := 0x56

/-- Models: pepclibs/CPUModels.py:64-67. -/
def HASWELL_X : Nat := 0x3f

/-- Models: pepclibs/CPUModels.py:68-71. -/
def HASWELL_G : Nat := 0x46

/-- Models: pepclibs/CPUModels.py:72-75. -/
def IVYBRIDGE_X : Nat := 0x3e

/-- Models: pepclibs/CPUModels.py:76-79. -/
def SANDYBRIDGE_X : Nat := 0x2d

/-- Models: pepclibs/CPUModels.py:80-83. -/
def WESTMERE_EP : Nat := 0x2c

/-- Models: pepclibs/CPUModels.py:84-87. -/
def WESTMERE_EX : Nat := 0x2f

/-- Models: pepclibs/CPUModels.py:88-91. -/
def NEHALEM_EP : Nat := 0x1a

/-- Models: pepclibs/CPUModels.py:92-95. -/
def NEHALEM_EX : Nat := 0x2e

/-- Models: pepclibs/CPUModels.py:97-100. -/
def LUNARLAKE_M : Nat := 0xbd

/-- Models: pepclibs/CPUModels.py:101-104. -/
def METEORLAKE : Nat := 0xac

/-- Models: pepclibs/CPUModels.py:105-108. -/
def METEORLAKE_L : Nat := 0xaa

/-- Models: pepclibs/CPUModels.py:109-112. -/
def RAPTORLAKE_P : Nat := 0xba

/-- Models: pepclibs/CPUModels.py:113-116. -/
def RAPTORLAKE_S : Nat := 0xbf

/-- Models: pepclibs/CPUModels.py:117-120. -/
def RAPTORLAKE : Nat := 0xb7

/-- Models: pepclibs/CPUModels.py:121-124. -/
def ALDERLAKE : Nat := 0x97

/-- Models: pepclibs/CPUModels.py:125-128. -/
def ALDERLAKE_L : Nat := 0x9a

/-- Models: pepclibs/CPUModels.py:129-132. -/
def ALDERLAKE_N : Nat := 0xbe

/-- Models: pepclibs/CPUModels.py:133-136. -/
def ROCKETLAKE : Nat := 0xa7

/-- Models: pepclibs/CPUModels.py:137-140. -/
def TIGERLAKE : Nat := 0x8d

/-- Models: pepclibs/CPUModels.py:141-144. -/
def TIGERLAKE_L : Nat := 0x8c

/-- Models: pepclibs/CPUModels.py:145-148. -/
def LAKEFIELD : Nat := 0x8a

/-- Models: pepclibs/CPUModels.py:149-152. -/
def COMETLAKE : Nat := 0xa5

/-- Models: pepclibs/CPUModels.py:153-156. -/
def COMETLAKE_L : Nat := 0xa6

/-- Models: pepclibs/CPUModels.py:157-160. -/
def KABYLAKE : Nat := 0x9e

/-- Models: pepclibs/CPUModels.py:161-164. -/
def KABYLAKE_L : Nat := 0x8e

/-- Models: pepclibs/CPUModels.py:165-168. -/
def ICELAKE : Nat := 0x7d

/-- Models: pepclibs/CPUModels.py:169-172. -/
def ICELAKE_L : Nat := 0x7e

/-- Models: pepclibs/CPUModels.py:173-176. -/
def CANNONLAKE_L : Nat := 0x66

/-- Models: pepclibs/CPUModels.py:177-180. -/
def SKYLAKE : Nat := 0x5e

/-- Models: pepclibs/CPUModels.py:181-184. -/
def SKYLAKE_L : Nat := 0x4e

/-- Models: pepclibs/CPUModels.py:185-188. -/
def BROADWELL : Nat := 0x3d

/-- Models: pepclibs/CPUModels.py:189-192. -/
def HASWELL : Nat := 0x3c

/-- Models: pepclibs/CPUModels.py:193-196. -/
def HASWELL_L : Nat := 0x45

/-- Models: pepclibs/CPUModels.py:197-200. -/
def IVYBRIDGE : Nat := 0x3a

/-- Models: pepclibs/CPUModels.py:201-204. -/
def SANDYBRIDGE : Nat := 0x2a

/-- Models: pepclibs/CPUModels.py:205-208. -/
def WESTMERE : Nat := 0x25

/-- Models: pepclibs/CPUModels.py:209-212. -/
def NEHALEM_G : Nat := 0x1f

/-- Models: pepclibs/CPUModels.py:213-216. -/
def NEHALEM : Nat := 0x1e

/-- Models: pepclibs/CPUModels.py:217-220. -/
def CORE2_MEROM : Nat := 0xf

/-- Models: pepclibs/CPUModels.py:222-225. -/
def ATOM_TREMONT : Nat := 0x96

/-- Models: pepclibs/CPUModels.py:226-229. -/
def ATOM_TREMONT_L : Nat := 0x9c

/-- Models: pepclibs/CPUModels.py:230-233. -/
def ATOM_GOLDMONT : Nat := 0x5c

/-- Models: pepclibs/CPUModels.py:234-237. -/
def ATOM_GOLDMONT_PLUS : Nat := 0x7a

/-- Models: pepclibs/CPUModels.py:238-241. -/
def ATOM_AIRMONT : Nat := 0x4c

/-- Models: pepclibs/CPUModels.py:242-245. -/
def ATOM_SILVERMONT : Nat := 0x37

/-- Models: pepclibs/CPUModels.py:246-249. -/
def ATOM_SILVERMONT_MID : Nat := 0x4a

/-- Models: pepclibs/CPUModels.py:250-253. -/
def ATOM_SILVERMONT_MID1 : Nat := 0x5a

/-- Models: pepclibs/CPUModels.py:254-257. -/
def ATOM_SALTWELL : Nat := 0x36

/-- Models: pepclibs/CPUModels.py:258-261. -/
def ATOM_SALTWELL_MID : Nat := 0x27

/-- Models: pepclibs/CPUModels.py:262-265. -/
def ATOM_SALTWELL_TABLET : Nat := 0x35

/-- Models: pepclibs/CPUModels.py:266-269. -/
def ATOM_BONNELL_MID : Nat := 0x26

/-- Models: pepclibs/CPUModels.py:270-273. -/
def ATOM_BONNELL : Nat := 0x1c

/-- Models: pepclibs/CPUModels.py:275-278. -/
def ATOM_CRESTMONT : Nat := 0xb6

/-- Models: pepclibs/CPUModels.py:279-282. -/
def ATOM_TREMONT_D : Nat := 0x86

/-- Models: pepclibs/CPUModels.py:283-286. -/
def ATOM_GOLDMONT_D : Nat := 0x5f

/-- Models: pepclibs/CPUModels.py:287-290. -/
def ATOM_SILVERMONT_D : Nat := 0x4d

/-- Models: pepclibs/CPUModels.py:292-295. -/
def ICELAKE_NNPI : Nat := 0x9d

/-- Models: pepclibs/CPUModels.py:296-299. -/
def XEON_PHI_KNM : Nat := 0x85

/-- Models: pepclibs/CPUModels.py:300-302. -/
def XEON_PHI_KNL : Nat := 0x57

/-! ### Groups -/

namespace Group

/-- Models: pepclibs/CPUModels.py:309-309. -/
def LUNARLAKE : List Nat := [CPUModels.LUNARLAKE_M]

/-- Models: pepclibs/CPUModels.py:310-311. -/
def GNR : List Nat := [CPUModels.GRANITERAPIDS_X, CPUModels.GRANITERAPIDS_D]

/-- Models: pepclibs/CPUModels.py:312-312. -/
def EMR : List Nat := [CPUModels.EMERALDRAPIDS_X]

/-- Models: pepclibs/CPUModels.py:313-314. -/
def METEORLAKE : List Nat := [CPUModels.METEORLAKE, CPUModels.METEORLAKE_L]

/-- Models: pepclibs/CPUModels.py:315-315. -/
def SPR : List Nat := [CPUModels.SAPPHIRERAPIDS_X]

/-- Models: pepclibs/CPUModels.py:316-318. -/
def RAPTORLAKE : List Nat := [CPUModels.RAPTORLAKE, CPUModels.RAPTORLAKE_P, CPUModels.RAPTORLAKE_S]

/-- Models: pepclibs/CPUModels.py:319-321. -/
def ALDERLAKE : List Nat := [CPUModels.ALDERLAKE, CPUModels.ALDERLAKE_L, CPUModels.ALDERLAKE_N]

/-- Models: pepclibs/CPUModels.py:322-322. -/
def ROCKETLAKE : List Nat := [CPUModels.ROCKETLAKE]

/-- Models: pepclibs/CPUModels.py:323-324. -/
def TIGERLAKE : List Nat := [CPUModels.TIGERLAKE, CPUModels.TIGERLAKE_L]

/-- Models: pepclibs/CPUModels.py:325-325. -/
def LAKEFIELD : List Nat := [CPUModels.LAKEFIELD]

/-- Models: pepclibs/CPUModels.py:326-329. -/
def ICELAKE : List Nat := [CPUModels.ICELAKE, CPUModels.ICELAKE_L, CPUModels.ICELAKE_D, CPUModels.ICELAKE_X]

/-- Models: pepclibs/CPUModels.py:330-331. -/
def ICL_CLIENT : List Nat := [CPUModels.ICELAKE, CPUModels.ICELAKE_L]

/-- Models: pepclibs/CPUModels.py:332-333. -/
def ICX : List Nat := [CPUModels.ICELAKE_D, CPUModels.ICELAKE_X]

/-- Models: pepclibs/CPUModels.py:334-335. -/
def COMETLAKE : List Nat := [CPUModels.COMETLAKE, CPUModels.COMETLAKE_L]

/-- Models: pepclibs/CPUModels.py:336-337. -/
def KABYLAKE : List Nat := [CPUModels.KABYLAKE, CPUModels.KABYLAKE_L]

/-- Models: pepclibs/CPUModels.py:338-338. -/
def CANNONLAKE : List Nat := [CPUModels.CANNONLAKE_L]

/-- Models: pepclibs/CPUModels.py:339-341. -/
def SKYLAKE : List Nat := [CPUModels.SKYLAKE, CPUModels.SKYLAKE_L, CPUModels.SKYLAKE_X]

/-- Models: pepclibs/CPUModels.py:342-343. -/
def SKL_CLIENT : List Nat := [CPUModels.SKYLAKE, CPUModels.SKYLAKE_L]

/-- Models: pepclibs/CPUModels.py:344-344. -/
def SKX : List Nat := [CPUModels.SKYLAKE_X]

/-- Models: pepclibs/CPUModels.py:345-348. -/
def BROADWELL : List Nat := [CPUModels.BROADWELL, CPUModels.BROADWELL_G, CPUModels.BROADWELL_D, CPUModels.BROADWELL_X]

/-- Models: pepclibs/CPUModels.py:349-352. -/
def HASWELL : List Nat := [CPUModels.HASWELL, CPUModels.HASWELL_L, CPUModels.HASWELL_G, CPUModels.HASWELL_X]

/-- Models: pepclibs/CPUModels.py:353-354. -/
def IVYBRIDGE : List Nat := [CPUModels.IVYBRIDGE, CPUModels.IVYBRIDGE_X]

/-- Models: pepclibs/CPUModels.py:355-356. -/
def SANDYBRIDGE : List Nat := [CPUModels.SANDYBRIDGE, CPUModels.SANDYBRIDGE_X]

/-- Models: pepclibs/CPUModels.py:357-359. -/
def WESTMERE : List Nat := [CPUModels.WESTMERE, CPUModels.WESTMERE_EP, CPUModels.WESTMERE_EX]

/-- Models: pepclibs/CPUModels.py:360-363. -/
def NEHALEM : List Nat := [CPUModels.NEHALEM, CPUModels.NEHALEM_G, CPUModels.NEHALEM_EP, CPUModels.NEHALEM_EX]

/-- Models: pepclibs/CPUModels.py:364-364. -/
def DARKMONT : List Nat := [CPUModels.ATOM_DARKMONT_X]

/-- Models: pepclibs/CPUModels.py:365-366. -/
def CRESTMONT : List Nat := [CPUModels.ATOM_CRESTMONT, CPUModels.ATOM_CRESTMONT_X]

/-- Models: pepclibs/CPUModels.py:367-369. -/
def TREMONT : List Nat := [CPUModels.ATOM_TREMONT, CPUModels.ATOM_TREMONT_L, CPUModels.ATOM_TREMONT_D]

/-- Models: pepclibs/CPUModels.py:370-372. -/
def GOLDMONT : List Nat := [CPUModels.ATOM_GOLDMONT, CPUModels.ATOM_GOLDMONT_D, CPUModels.ATOM_GOLDMONT_PLUS]

/-- Models: pepclibs/CPUModels.py:373-373. -/
def AIRMONT : List Nat := [CPUModels.ATOM_AIRMONT]

/-- Models: pepclibs/CPUModels.py:374-377. -/
def SILVERMONT : List Nat :=
  [CPUModels.ATOM_SILVERMONT, CPUModels.ATOM_SILVERMONT_MID, CPUModels.ATOM_SILVERMONT_MID1, CPUModels.ATOM_SILVERMONT_D]

/-- Models: pepclibs/CPUModels.py:378-379. -/
def PHI : List Nat := [CPUModels.XEON_PHI_KNL, CPUModels.XEON_PHI_KNM]

end Group

end Verif.CPUModels
