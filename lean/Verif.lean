import Verif.Props.C01
import Verif.Props.C02
import Verif.Props.C03
import Verif.Props.C04
import Verif.Props.C05
import Verif.Props.C06
import Verif.Props.C07
import Verif.Props.C08
import Verif.Props.C09
import Verif.Props.C10
import Verif.Props.C11
import Verif.Props.C12
import Verif.Props.C12Space
import Verif.Props.C13
import Verif.Props.C14
import Verif.Props.C15
import Verif.Props.C16
import Verif.Props.C17
import Verif.Props.C18
import Verif.Props.C19
import Verif.Props.C20
import Verif.Props.C21
import Verif.Props.C21Defined
import Verif.Props.C21Degree2
import Verif.Props.C21Lobatto
import Verif.Props.C21McNamee
import Verif.Props.C21Product
import Verif.Props.C22
import Verif.Props.C22Defined
import Verif.Props.C22Examples
import Verif.Props.C22Stroud1969
import Verif.Props.C22Stroud1969Solved
import Verif.Props.C22Walk
import Verif.Props.C23
import Verif.Props.C24
import Verif.Props.C24Lobatto
import Verif.Props.C24Radii
import Verif.Props.C24Stoyanova
import Verif.Props.C24StoyanovaDefault
import Verif.Props.C25
import Verif.Props.C25Lobatto
import Verif.Props.C25Simplex
import Verif.Props.C25Stroud1969
import Verif.Props.C26
import Verif.Props.C26Lobatto
import Verif.Props.C26Simplex
import Verif.Props.C27
import Verif.Props.C27Lobatto
import Verif.Props.C27Radii
import Verif.Props.C27Simplex
import Verif.Props.C28
import Verif.Props.C29
import Verif.Props.C30
import Verif.Props.C30Gauss
import Verif.Props.C31
import Verif.Props.C32
import Verif.Props.C33
import Verif.Props.C34
import Verif.Props.C35
import Verif.Props.C36
import Verif.Props.C37
import Verif.Props.C37Example
import Verif.Props.C38
import Verif.Props.C39
import Verif.Props.C40
import Verif.Props.C41
import Verif.Props.C42
import Verif.Props.C43
import Verif.Props.C44
import Verif.Props.C45
import Verif.Props.C46
import Verif.Props.C47
import Verif.Props.C47Legendre
import Verif.Props.C47Two
import Verif.Props.C48C2
import Verif.Props.C48C3
import Verif.Props.C48E2
import Verif.Props.C48E3
import Verif.Props.C48More
import Verif.Props.C48Product
import Verif.Props.C48S2
import Verif.Props.C48S2Roots
import Verif.Props.C48S3
import Verif.Props.C48T2
import Verif.Props.C48T3
import Verif.Props.C48U3
import Verif.Props.C48U3Roots
import Verif.Props.C49
import Verif.Props.C50
import Verif.Props.C50Kubatko
import Verif.Props.C51
import Verif.Props.C52
import Verif.Props.C53
import Verif.Props.C54
import Verif.Props.C55
import Verif.Props.C55Tables
import Verif.Props.C56
import Verif.Props.C56Wedge
import Verif.Props.C57
import Verif.Props.C57Conical
import Verif.Props.C57Degrees
import Verif.Props.C57Disk
import Verif.Props.C57Pyramid
import Verif.Props.C57Radial
import Verif.Props.C57Sphere
import Verif.Props.C57Wedge
import Verif.Props.C58Enr2
import Verif.Props.C58Sn
import Verif.Props.C58Stroud1967
import Verif.Props.C59
import Verif.Props.C60
import Verif.Props.C61
import Verif.Props.C62
import Verif.Props.C63
import Verif.Props.C64
import Verif.Props.C65
import Verif.Props.C66
import Verif.Props.C67
import Verif.Props.C68
import Verif.Props.C69
import Verif.Props.C70
import Verif.Props.C70Default
import Verif.Props.C71
import Verif.Props.C72
import Verif.Props.C72Chebyshev
import Verif.Props.C72ChebyshevFirst
import Verif.Props.C72Default
import Verif.Props.C73
import Verif.Props.C73Interp
import Verif.Props.C74
import Verif.Props.C74Families
import Verif.Props.C74Solid
import Verif.Props.C74Space
import Verif.Props.C74Transfer
import Verif.Props.C75
import Verif.Props.C75Cube
import Verif.Props.C75Mapped
import Verif.Props.C75Space
import Verif.Props.C75Unbounded
import Verif.Props.C76
import Verif.Props.C77
import Verif.Props.C78
import Verif.Props.C79
import Verif.Props.C80
import Verif.Props.Cases
import Verif.Props.Cases2
import Verif.Props.Cases3
import Verif.Props.Cases4
