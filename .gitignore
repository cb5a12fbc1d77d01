lean/.lake/
__pycache__/
*.pyc
