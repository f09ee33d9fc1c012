import Verif.Props.C01_EigsMembers
import Verif.Props.C02_EigsWrites
import Verif.Props.C03_MemberInfo
import Verif.Props.C04_SvdsMembers
import Verif.Props.C05_EnumNames
import Verif.Props.C06_SetMethod
import Verif.Props.C07_DefaultsAccepted
import Verif.Props.C08_CheckInput
import Verif.Props.C09_SvdsCheckInput
import Verif.Props.C10_SvdsStages
import Verif.Props.C11_Seeds
import Verif.Props.C12_Query
import Verif.Props.C12_SvdsQuery
import Verif.Props.C13_CoordinatedExit
import Verif.Props.C14_Results
import Verif.Props.C15_Limits
import Verif.Props.C16_Sizes
import Verif.Props.C17_Locking
import Verif.Props.C18_Permute
import Verif.Props.C19_Convergence
import Verif.Props.C20_Memory
import Verif.Props.C21_Ortho
import Verif.Props.C22_Restart
import Verif.Props.C23_RitzOrder
import Verif.Props.C24_Dynamic
import Verif.Props.C25_InnerSolve
import Verif.Props.C26_SvdsOperator
import Verif.Props.C27_Layout
import Verif.Props.C28_SvdsRun
import Verif.Props.C29_Counters
import Verif.Props.C30_Precision
import Verif.Props.C31_Projection
import Verif.Props.C32_Broadcast
import Verif.Props.C33_InitBasis
import Verif.Props.C34_Shifts
import Verif.Props.C35_MergeSort
import Verif.Props.C36_Monitor
import Verif.Props.C37_Gather
import Verif.Props.C38_TempParams
import Verif.Props.C39_Presets
import Verif.Props.C40_CopyMatrix
import Verif.Props.C40_Triangle
import Verif.Props.C41_Compare
import Verif.Props.C41_SvdsShifts
import Verif.Props.C42_Block
import Verif.Props.C43_Matching
import Verif.Props.C44_Delivery
import Verif.Props.C45_SvdsTest
import Verif.Props.C46_Kernels
import Verif.Props.C47_Rayleigh
import Verif.Props.C48_Accuracy
import Verif.Props.C49_BlockOrtho
import Verif.Props.C50_Fortran
import Verif.Props.C51_Triplets
import Verif.Props.C52_Extraction
import Verif.Props.C53_PyEigsh
import Verif.Props.C54_PySvds
import Verif.Props.C55_InnerTest
import Verif.Props.C56_REigs
import Verif.Props.C57_RSvds
import Verif.Props.C58_SkewProjector
import Verif.Props.C59_Practical
import Verif.Props.C60_Combine
import Verif.Props.C61_Direction
import Verif.Props.C62_Guesses
import Verif.Props.C63_Targets
import Verif.Props.C64_Estimates
import Verif.Props.C65_MatEigs
import Verif.Props.C66_MatSvds
import Verif.Props.C67_LockBlock
import Verif.Props.C68_DefaultMonitor
import Verif.Props.C69_Display
import Verif.Props.C70_Clusters
import Verif.Props.C71_Precision
import Verif.Props.C72_Lapack
import Verif.Props.C73_Factor
