import Verif.Model.SM3Ins
/- Generated by gen/gensm3.py from hash/sm3/compress.go:119-235; one instruction per line. -/
namespace Model.SM3

def prog : List Ins := [
  .r1 0 1 2 3 4 5 6 7 0x79CC4519 0 0 4,
  .sm3e 0 0 7 13 3 10,
  .r1 3 0 1 2 7 4 5 6 0xF3988A32 1 1 5,
  .sm3e 1 1 8 14 4 11,
  .r1 2 3 0 1 6 7 4 5 0xE7311465 2 2 6,
  .sm3e 2 2 9 15 5 12,
  .r1 1 2 3 0 5 6 7 4 0xCE6228CB 3 3 7,
  .sm3e 3 3 10 0 6 13,
  .r1 0 1 2 3 4 5 6 7 0x9CC45197 4 4 8,
  .sm3e 4 4 11 1 7 14,
  .r1 3 0 1 2 7 4 5 6 0x3988A32F 5 5 9,
  .sm3e 5 5 12 2 8 15,
  .r1 2 3 0 1 6 7 4 5 0x7311465E 6 6 10,
  .sm3e 6 6 13 3 9 0,
  .r1 1 2 3 0 5 6 7 4 0xE6228CBC 7 7 11,
  .sm3e 7 7 14 4 10 1,
  .r1 0 1 2 3 4 5 6 7 0xCC451979 8 8 12,
  .sm3e 8 8 15 5 11 2,
  .r1 3 0 1 2 7 4 5 6 0x988A32F3 9 9 13,
  .sm3e 9 9 0 6 12 3,
  .r1 2 3 0 1 6 7 4 5 0x311465E7 10 10 14,
  .sm3e 10 10 1 7 13 4,
  .r1 1 2 3 0 5 6 7 4 0x6228CBCE 11 11 15,
  .sm3e 11 11 2 8 14 5,
  .r1 0 1 2 3 4 5 6 7 0xC451979C 12 12 0,
  .sm3e 12 12 3 9 15 6,
  .r1 3 0 1 2 7 4 5 6 0x88A32F39 13 13 1,
  .sm3e 13 13 4 10 0 7,
  .r1 2 3 0 1 6 7 4 5 0x11465E73 14 14 2,
  .sm3e 14 14 5 11 1 8,
  .r1 1 2 3 0 5 6 7 4 0x228CBCE6 15 15 3,
  .sm3e 15 15 6 12 2 9,
  .r2 0 1 2 3 4 5 6 7 0x9D8A7A87 0 0 4,
  .sm3e 0 0 7 13 3 10,
  .r2 3 0 1 2 7 4 5 6 0x3B14F50F 1 1 5,
  .sm3e 1 1 8 14 4 11,
  .r2 2 3 0 1 6 7 4 5 0x7629EA1E 2 2 6,
  .sm3e 2 2 9 15 5 12,
  .r2 1 2 3 0 5 6 7 4 0xEC53D43C 3 3 7,
  .sm3e 3 3 10 0 6 13,
  .r2 0 1 2 3 4 5 6 7 0xD8A7A879 4 4 8,
  .sm3e 4 4 11 1 7 14,
  .r2 3 0 1 2 7 4 5 6 0xB14F50F3 5 5 9,
  .sm3e 5 5 12 2 8 15,
  .r2 2 3 0 1 6 7 4 5 0x629EA1E7 6 6 10,
  .sm3e 6 6 13 3 9 0,
  .r2 1 2 3 0 5 6 7 4 0xC53D43CE 7 7 11,
  .sm3e 7 7 14 4 10 1,
  .r2 0 1 2 3 4 5 6 7 0x8A7A879D 8 8 12,
  .sm3e 8 8 15 5 11 2,
  .r2 3 0 1 2 7 4 5 6 0x14F50F3B 9 9 13,
  .sm3e 9 9 0 6 12 3,
  .r2 2 3 0 1 6 7 4 5 0x29EA1E76 10 10 14,
  .sm3e 10 10 1 7 13 4,
  .r2 1 2 3 0 5 6 7 4 0x53D43CEC 11 11 15,
  .sm3e 11 11 2 8 14 5,
  .r2 0 1 2 3 4 5 6 7 0xA7A879D8 12 12 0,
  .sm3e 12 12 3 9 15 6,
  .r2 3 0 1 2 7 4 5 6 0x4F50F3B1 13 13 1,
  .sm3e 13 13 4 10 0 7,
  .r2 2 3 0 1 6 7 4 5 0x9EA1E762 14 14 2,
  .sm3e 14 14 5 11 1 8,
  .r2 1 2 3 0 5 6 7 4 0x3D43CEC5 15 15 3,
  .sm3e 15 15 6 12 2 9,
  .r2 0 1 2 3 4 5 6 7 0x7A879D8A 0 0 4,
  .sm3e 0 0 7 13 3 10,
  .r2 3 0 1 2 7 4 5 6 0xF50F3B14 1 1 5,
  .sm3e 1 1 8 14 4 11,
  .r2 2 3 0 1 6 7 4 5 0xEA1E7629 2 2 6,
  .sm3e 2 2 9 15 5 12,
  .r2 1 2 3 0 5 6 7 4 0xD43CEC53 3 3 7,
  .sm3e 3 3 10 0 6 13,
  .r2 0 1 2 3 4 5 6 7 0xA879D8A7 4 4 8,
  .sm3e 4 4 11 1 7 14,
  .r2 3 0 1 2 7 4 5 6 0x50F3B14F 5 5 9,
  .sm3e 5 5 12 2 8 15,
  .r2 2 3 0 1 6 7 4 5 0xA1E7629E 6 6 10,
  .sm3e 6 6 13 3 9 0,
  .r2 1 2 3 0 5 6 7 4 0x43CEC53D 7 7 11,
  .sm3e 7 7 14 4 10 1,
  .r2 0 1 2 3 4 5 6 7 0x879D8A7A 8 8 12,
  .sm3e 8 8 15 5 11 2,
  .r2 3 0 1 2 7 4 5 6 0x0F3B14F5 9 9 13,
  .sm3e 9 9 0 6 12 3,
  .r2 2 3 0 1 6 7 4 5 0x1E7629EA 10 10 14,
  .sm3e 10 10 1 7 13 4,
  .r2 1 2 3 0 5 6 7 4 0x3CEC53D4 11 11 15,
  .sm3e 11 11 2 8 14 5,
  .r2 0 1 2 3 4 5 6 7 0x79D8A7A8 12 12 0,
  .sm3e 12 12 3 9 15 6,
  .r2 3 0 1 2 7 4 5 6 0xF3B14F50 13 13 1,
  .sm3e 13 13 4 10 0 7,
  .r2 2 3 0 1 6 7 4 5 0xE7629EA1 14 14 2,
  .sm3e 14 14 5 11 1 8,
  .r2 1 2 3 0 5 6 7 4 0xCEC53D43 15 15 3,
  .sm3e 15 15 6 12 2 9,
  .r2 0 1 2 3 4 5 6 7 0x9D8A7A87 0 0 4,
  .sm3e 0 0 7 13 3 10,
  .r2 3 0 1 2 7 4 5 6 0x3B14F50F 1 1 5,
  .sm3e 1 1 8 14 4 11,
  .r2 2 3 0 1 6 7 4 5 0x7629EA1E 2 2 6,
  .sm3e 2 2 9 15 5 12,
  .r2 1 2 3 0 5 6 7 4 0xEC53D43C 3 3 7,
  .sm3e 3 3 10 0 6 13,
  .r2 0 1 2 3 4 5 6 7 0xD8A7A879 4 4 8,
  .r2 3 0 1 2 7 4 5 6 0xB14F50F3 5 5 9,
  .r2 2 3 0 1 6 7 4 5 0x629EA1E7 6 6 10,
  .r2 1 2 3 0 5 6 7 4 0xC53D43CE 7 7 11,
  .r2 0 1 2 3 4 5 6 7 0x8A7A879D 8 8 12,
  .r2 3 0 1 2 7 4 5 6 0x14F50F3B 9 9 13,
  .r2 2 3 0 1 6 7 4 5 0x29EA1E76 10 10 14,
  .r2 1 2 3 0 5 6 7 4 0x53D43CEC 11 11 15,
  .r2 0 1 2 3 4 5 6 7 0xA7A879D8 12 12 0,
  .r2 3 0 1 2 7 4 5 6 0x4F50F3B1 13 13 1,
  .r2 2 3 0 1 6 7 4 5 0x9EA1E762 14 14 2,
  .r2 1 2 3 0 5 6 7 4 0x3D43CEC5 15 15 3]

end Model.SM3
